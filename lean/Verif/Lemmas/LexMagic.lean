import Verif.Lemmas.LexHeredoc
import Verif.Model.Lexer.Magic
/-! Magic comments: no panic, and where they lie. -/
namespace Verif.Lexer
variable {s : Lexer}

theorem mcSkip_le (p : MB → Bool) (b : Buffer) : ∀ n str, mcSkip p b n str ≤ n
  | 0, _ => Nat.le_refl _
  | n + 1, str => by
    unfold mcSkip
    split
    · have := mcSkip_le p b n (str + 1); omega
    · omega

theorem mcSkip_pos {p : MB → Bool} {b : Buffer} {n str : Nat} (h : p (b.byteAt str) = true) (hn : 0 < n) :
    1 ≤ mcSkip p b n str := by
  obtain ⟨m, rfl⟩ : ∃ m, n = m + 1 := ⟨n - 1, by omega⟩
  unfold mcSkip
  rw [if_pos h]; omega

theorem mcSkip_zero {p : MB → Bool} {b : Buffer} {n str : Nat} (h : mcSkip p b n str = 0) (hn : 0 < n) :
    p (b.byteAt str) = false := by
  cases e : p (b.byteAt str) with
  | false => rfl
  | true => have := mcSkip_pos e hn; omega

theorem commentAtTop_ok {b : Buffer} (h : 0 < b.pcur) : ∃ r, commentAtTop b = .ok r := by
  unfold commentAtTop
  rw [csub_of_le h]
  simp only [Bind.bind, Except.bind, Pure.pure, Except.pure]
  generalize (if b.hasShebang = true then 2 else 1) = k
  split
  · exact ⟨_, rfl⟩
  · exact ⟨_, rfl⟩

/-- A magic comment found in `lo..hi`. -/
structure MagicOk (d : DecodedInput) (lo hi : Nat) (m : MagicComment) : Prop where
  lo : lo ≤ m.keyL.begin
  key : m.keyL.begin ≤ m.keyL.stop
  sep : m.keyL.stop < m.valueL.begin
  value : m.valueL.begin ≤ m.valueL.stop
  hi : m.valueL.stop ≤ hi
  kind : (mcName (Spec.slice d.bytes m.keyL.begin m.keyL.stop), m.kind) ∈ MAGIC_COMMENTS

/-- Only magic comments were added. -/
structure MF (lo hi : Nat) (s s' : Lexer) : Prop where
  st : s'.strterm = s.strterm
  ls : s'.lvalStart = s.lvalStart
  le : s'.lvalEnd = s.lvalEnd
  com : s'.comments = s.comments
  mag : ∃ ms, s'.magicComments = s.magicComments ++ ms ∧ ∀ m ∈ ms, MagicOk s.buffer.d lo hi m

theorem MF.refl (lo hi : Nat) (s : Lexer) : MF lo hi s s := ⟨rfl, rfl, rfl, rfl, [], by simp, by simp⟩
theorem MF.trans {lo hi : Nat} {a b c : Lexer} (h : MF lo hi a b) (hb : b.buffer = a.buffer) (h' : MF lo hi b c) : MF lo hi a c := by
  obtain ⟨ms, e1, h1⟩ := h.mag
  obtain ⟨ms', e2, h2⟩ := h'.mag
  refine ⟨h'.st.trans h.st, h'.ls.trans h.ls, h'.le.trans h.le, h'.com.trans h.com, ms ++ ms', by rw [e2, e1, List.append_assoc], ?_⟩
  intro m hm
  rcases List.mem_append.1 hm with hm | hm
  · exact h1 m hm
  · have := h2 m hm
    rw [hb] at this; exact this

theorem setEncoding_ok {up : Nat → List Nat} {i i' : Input} {enc : List Nat} {u : Unit} {cs : List (List Nat × Bytes)}
    (hd : i.DecOk) (ht : i.decoded.Tabled) (h : i.setEncoding up enc = (i', .ok u, cs)) : i' = i := by
  have key : ∀ bs, bs = i.decoded.bytes → ({ i with decoded := i.decoded.takeBytes.2 } : Input).updateBytes bs = i := by
    rintro bs rfl
    unfold Input.updateBytes DecodedInput.takeBytes
    have h1 := updateBytes_lines { i.decoded with bytes := [] } i.decoded.bytes
    have h2 : (({ i.decoded with bytes := [] } : DecodedInput).updateBytes i.decoded.bytes) = i.decoded := by
      have h3 : ∀ a b : DecodedInput, a.name = b.name → a.lines = b.lines → a.bytes = b.bytes → a = b := by
        rintro ⟨⟩ ⟨⟩ rfl rfl rfl; rfl
      exact h3 _ _ rfl (h1.trans ht.symm) rfl
    simp only [h2]
  unfold Input.setEncoding at h
  unfold decodeInput at h
  simp only at h
  split at h
  · rename_i bs cs' hdec
    simp only [Prod.mk.injEq, true_and] at h
    rw [← h.1]
    apply key
    split at hdec
    · simp only [Prod.mk.injEq, DecoderResult.ok.injEq] at hdec
      rw [← hdec.1]; rfl
    · split at hdec
      · rename_i f hf
        simp only [Prod.mk.injEq] at hdec
        exact hd f hf _ _ hdec.1
      · simp at hdec
  · simp at h

theorem mcRecord_wp {x : Ext} {name : Bytes} {kl vl : Verif.Loc} {lo hi : Nat} : ∀ (l : List (Bytes × MagicKind)) (s : Lexer),
    (∀ e ∈ l, e ∈ MAGIC_COMMENTS) → s.buffer.input.DecOk → s.buffer.d.Tabled → 0 < s.buffer.pcur →
    lo ≤ kl.begin → kl.begin ≤ kl.stop → kl.stop < vl.begin → vl.begin ≤ vl.stop → vl.stop ≤ hi → hi ≤ s.buffer.d.bytes.length →
    name = Spec.slice s.buffer.d.bytes kl.begin kl.stop →
    Wp (mcRecord x name kl vl l) (fun r s' => MF lo hi s s' ∧ (r = true → s'.buffer = s.buffer)) s
  | [], s, _, _, _, _, _, _, _, _, _, _, _ => by
    unfold mcRecord
    exact Wp.pure ⟨.refl _ _ _, fun _ => rfl⟩
  | (n, kind) :: rest, s, hl, hd, ht, hp, h1, h2, h3, h4, h5, h6, hname => by
    unfold mcRecord
    have hrest : ∀ e ∈ rest, e ∈ MAGIC_COMMENTS := fun e he => hl e (List.mem_cons_of_mem _ he)
    have go : ∀ s1 : Lexer, MF lo hi s s1 → s1.buffer = s.buffer →
        Wp (mcRecord x name kl vl rest) (fun r s' => MF lo hi s s' ∧ (r = true → s'.buffer = s.buffer)) s1 := by
      intro s1 hm hb
      refine (mcRecord_wp rest s1 hrest (by rw [hb]; exact hd) (by rw [hb]; exact ht) (by rw [hb]; exact hp) h1 h2 h3 h4 h5
        (by rw [hb]; exact h6) (by rw [hb]; exact hname)).mono ?_
      rintro r s' ⟨h7, h8⟩
      exact ⟨hm.trans hb h7, fun e => (h8 e).trans hb⟩
    have fin : ∀ (ok : Bool) (s1 : Lexer), mcName name = n → MF lo hi s s1 → (ok = true → s1.buffer = s.buffer) → Wp (do
        if !ok then return false
        else
          Lexer.modS fun s => { s with magicComments := s.magicComments ++ [⟨kind, kl, vl⟩] }
          mcRecord x name kl vl rest) (fun r s' => MF lo hi s s' ∧ (r = true → s'.buffer = s.buffer)) s1 := by
      intro ok s1 hn hm hb
      refine Wp.ite (fun h => Wp.pure ⟨hm, by simp⟩) (fun h => ?_)
      have hb := hb (by simpa using h)
      refine Wp.bind (Wp.modS (go _ (hm.trans hb ⟨rfl, rfl, rfl, rfl, [⟨kind, kl, vl⟩], rfl, ?_⟩) hb))
      intro m hmm
      rw [List.mem_singleton.1 hmm]
      refine ⟨h1, h2, h3, h4, h5, ?_⟩
      rw [hb]
      dsimp only
      rw [← hname, hn]
      exact hl _ (List.mem_cons_self ..)
    refine Wp.ite (fun hn => ?_) (fun hn => ?_)
    · have top : ∀ top : Bool, Wp (do
          let ok ← if top then do
              match ← Lexer.liftB fun b => b.substrAt vl.begin vl.stop with
              | none => fail .expect
              | some enc =>
                if !Utf8.valid enc then do
                  Lexer.compileError (.EncodingErrorUtf8 (Utf8.lossy enc)) vl
                  Pure.pure false
                else do
                  let (input, r, _) ← Lexer.getB fun b => b.input.setEncoding x.up (Utf8.lossy enc)
                  Lexer.modB fun b => { b with input := input }
                  match r with
                  | .ok _ => Pure.pure true
                  | .error e => do
                    Lexer.compileError (.EncodingError e) vl
                    Pure.pure false
            else Pure.pure true
          if !ok then Pure.pure false
          else
            Lexer.modS fun s => { s with magicComments := s.magicComments ++ [⟨kind, kl, vl⟩] }
            mcRecord x name kl vl rest) (fun r s' => MF lo hi s s' ∧ (r = true → s'.buffer = s.buffer)) s := by
        intro top
        refine Wp.ite (fun h => ?_) (fun h => ?_)
        · refine Wp.bind (Wp.liftB _ (substrAt_ok h4 (by omega)) ?_)
          dsimp only
          refine Wp.ite (fun h => ?_) (fun h => ?_)
          · refine Wp.bind (Wp.pu (Pu.compileError _ _) ?_)
            intro _ s1 hs
            exact fin false s1 hn ⟨hs.2.1, hs.2.2.1, hs.2.2.2.1, hs.2.2.2.2.1, [], by simpa using hs.2.2.2.2.2, by simp⟩ (by simp)
          · refine Wp.bind (Wp.getB ?_)
            generalize hse : s.buffer.input.setEncoding x.up _ = res
            obtain ⟨i', r, cs⟩ := res
            dsimp only
            refine Wp.bind (Wp.modB ?_)
            cases r with
            | ok u =>
              have e := setEncoding_ok hd ht hse
              subst e
              exact fin true _ hn (.refl _ _ _) (fun _ => rfl)
            | error e =>
              dsimp only
              refine Wp.bind (Wp.pu (Pu.compileError _ _) ?_)
              intro _ s1 hs
              exact fin false s1 hn ⟨hs.2.1, hs.2.2.1, hs.2.2.2.1, hs.2.2.2.2.1, [], by simpa using hs.2.2.2.2.2, by simp⟩ (by simp)
        · exact fin true s hn (.refl _ _ _) (fun _ => rfl)
      refine Wp.ite (fun hk => ?_) (fun hk => ?_)
      · obtain ⟨r, hr⟩ := commentAtTop_ok hp
        exact Wp.bind (Wp.liftB r hr (top r))
      · exact top false
    · exact go s (.refl _ _ _) rfl


theorem mcQuoted_spec (b : Buffer) : ∀ (n str : Nat) (len : Int), 0 ≤ len → len.toNat ≤ n →
    str ≤ (mcQuoted b n str len).1 ∧ ((mcQuoted b n str len).1 : Int) + (mcQuoted b n str len).2 = str + (len - 1) ∧
    -1 ≤ (mcQuoted b n str len).2
  | 0, str, len, h0, hn => by
    unfold mcQuoted
    exact ⟨Nat.le_refl _, rfl, by omega⟩
  | n + 1, str, len, h0, hn => by
    unfold mcQuoted
    dsimp only
    split
    · rename_i h
      have h1 := h.1
      split
      · have := mcQuoted_spec b n (str + 2) (len - 2) (by omega) (by omega)
        refine ⟨by omega, by omega, this.2.2⟩
      · have := mcQuoted_spec b n (str + 1) (len - 1) (by omega) (by omega)
        refine ⟨by omega, by omega, this.2.2⟩
    · exact ⟨Nat.le_refl _, rfl, by dsimp only; omega⟩

theorem mcValue_spec (b : Buffer) (str : Nat) (len : Int) (h : 0 < len) {vb ve str' : Nat} {len' : Int}
    (e : mcValue b str len = (vb, ve, str', len')) :
    str ≤ vb ∧ vb ≤ ve ∧ ve ≤ str' ∧ (str' : Int) + len' = str + len ∧ (ve : Int) ≤ str + len + 1 ∧ (len' = 0 → (ve : Int) ≤ str + len) := by
  unfold mcValue at e
  split at e
  · have h1 := mcQuoted_spec b len.toNat (str + 1) len (by omega) (Nat.le_refl _)
    generalize mcQuoted b len.toNat (str + 1) len = r at e h1
    obtain ⟨v, l⟩ := r
    dsimp only at e h1
    split at e
    · simp only [Prod.mk.injEq] at e
      obtain ⟨rfl, rfl, rfl, rfl⟩ := e
      refine ⟨by omega, by omega, by omega, by omega, by omega, by omega⟩
    · simp only [Prod.mk.injEq] at e
      obtain ⟨rfl, rfl, rfl, rfl⟩ := e
      refine ⟨by omega, by omega, by omega, by omega, by omega, by omega⟩
  · have h1 := mcSkip_le (fun c => !isC c '"' && !isC c ';' && !MB.isSpace c) b len.toNat str
    generalize mcSkip (fun c => !isC c '"' && !isC c ';' && !MB.isSpace c) b len.toNat str = k at e h1
    simp only [Prod.mk.injEq] at e
    obtain ⟨rfl, rfl, rfl, rfl⟩ := e
    refine ⟨by omega, by omega, by omega, by omega, by omega, by omega⟩

theorem mcLoop_wp {x : Ext} {ind : Bool} {lo hi E : Nat} : ∀ n (str : Nat) (len : Int) (s : Lexer),
    s.buffer.input.DecOk → s.buffer.d.Tabled → 0 < s.buffer.pcur → (str : Int) + len = E → lo ≤ str → len.toNat < n →
    (if ind then E + 1 else E) ≤ hi → hi ≤ s.buffer.d.bytes.length →
    Wp (mcLoop x ind n str len) (fun r s' => MF lo hi s s' ∧ (r.isSome = true → s'.buffer = s.buffer)) s
  | 0, _, _, _, _, _, _, _, _, h, _, _ => absurd h (Nat.not_lt_zero _)
  | n + 1, str, len, s, hd, ht, hp, hE, hlo, hn, hhi, hlen => by
    unfold mcLoop
    refine Wp.ite (fun h => Wp.pure ⟨.refl _ _ _, fun _ => rfl⟩) (fun h0 => ?_)
    refine Wp.bind (Wp.getB ?_)
    dsimp only [id_eq]
    have a1 := mcSkip_le (fun c => mcSep c || MB.isSpace c) s.buffer len.toNat str
    have z1 := @mcSkip_zero (fun c => mcSep c || MB.isSpace c) s.buffer len.toNat str
    generalize mcSkip (fun c => mcSep c || MB.isSpace c) s.buffer len.toNat str = k1 at a1 z1 ⊢
    have a2 := mcSkip_le (fun c => !mcSep c && !MB.isSpace c) s.buffer (len - ↑k1).toNat (str + k1)
    have z2 := @mcSkip_zero (fun c => !mcSep c && !MB.isSpace c) s.buffer (len - ↑k1).toNat (str + k1)
    generalize mcSkip (fun c => !mcSep c && !MB.isSpace c) s.buffer (len - ↑k1).toNat (str + k1) = k2 at a2 z2 ⊢
    have prog : 1 ≤ k1 + k2 := by
      by_contra hk
      have e1 : k1 = 0 := by omega
      have e2 : k2 = 0 := by omega
      subst e1 e2
      have b1 := z1 rfl (by omega)
      have b2 := z2 rfl (by omega)
      simp only [Nat.add_zero, Bool.or_eq_false_iff] at b1 b2
      simp [b1.1, b1.2] at b2
    clear z1 z2
    have a3 := mcSkip_le MB.isSpace s.buffer (len - ↑k1 - ↑k2).toNat (str + k1 + k2)
    generalize mcSkip MB.isSpace s.buffer (len - ↑k1 - ↑k2).toNat (str + k1 + k2) = k3 at a3 ⊢
    refine Wp.ite (fun h => Wp.pure ⟨.refl _ _ _, fun _ => rfl⟩) (fun h1 => ?_)
    refine Wp.ite (fun h => ?_) (fun h2 => ?_)
    · refine Wp.ite (fun h => Wp.pure ⟨.refl _ _ _, fun _ => rfl⟩) (fun h3 => ?_)
      exact mcLoop_wp n _ _ s hd ht hp (by omega) (by omega) (by omega) hhi hlen
    · have a4 := mcSkip_le MB.isSpace s.buffer (len - ↑k1 - ↑k2 - ↑k3 - 1).toNat (str + k1 + k2 + k3 + 1)
      generalize mcSkip MB.isSpace s.buffer (len - ↑k1 - ↑k2 - ↑k3 - 1).toNat (str + k1 + k2 + k3 + 1) = k4 at a4 ⊢
      refine Wp.ite (fun h => Wp.pure ⟨.refl _ _ _, fun _ => rfl⟩) (fun h3 => ?_)
      have a5 := @mcValue_spec s.buffer (str + k1 + k2 + k3 + 1 + k4) (len - ↑k1 - ↑k2 - ↑k3 - 1 - ↑k4) (by omega)
      generalize mcValue s.buffer (str + k1 + k2 + k3 + 1 + k4) (len - ↑k1 - ↑k2 - ↑k3 - 1 - ↑k4) = r at a5 ⊢
      obtain ⟨vb, ve, str', len'⟩ := r
      dsimp only
      obtain ⟨b1, b2, b3, b4, b5, b6⟩ := a5 rfl
      have a6 := mcSkip_le (fun c => (ind && isC c ';') || MB.isSpace c) s.buffer len'.toNat str'
      generalize mcSkip (fun c => (ind && isC c ';') || MB.isSpace c) s.buffer len'.toNat str' = k6 at a6 ⊢
      refine Wp.ite (fun h => Wp.pure ⟨.refl _ _ _, fun _ => rfl⟩) (fun h4 => ?_)
      have hve : ve ≤ hi := by
        cases ind with
        | true => rw [if_pos rfl] at hhi; omega
        | false =>
          rw [if_neg (by decide)] at hhi
          have h5 : len' - (k6 : Int) = 0 := by simpa using h4
          by_cases h6 : len' = 0
          · have := b6 h6; omega
          · omega
      refine Wp.bind (Wp.liftB _ (substrAt_ok (by omega) (by omega)) ?_)
      dsimp only
      refine Wp.ite (fun h => Wp.pure ⟨.refl _ _ _, by simp⟩) (fun h5 => ?_)
      refine Wp.bind ((mcRecord_wp (lo := lo) (hi := hi) (kl := ⟨str + k1, str + k1 + k2⟩) (vl := ⟨vb, ve⟩) MAGIC_COMMENTS s (fun _ h => h) hd ht hp (by show lo ≤ str + k1; omega)
        (by show str + k1 ≤ str + k1 + k2; omega) (by show str + k1 + k2 < vb; omega) b2 hve hlen rfl).mono ?_)
      rintro r s1 ⟨c1, c2⟩
      refine Wp.ite (fun h => Wp.pure ⟨c1, by simp⟩) (fun h6 => ?_)
      have hb := c2 (by simpa using h6)
      refine (mcLoop_wp (lo := lo) (hi := hi) (E := E) n (str' + k6) (len' - ↑k6) s1 (by rw [hb]; exact hd) (by rw [hb]; exact ht) (by rw [hb]; exact hp) (by omega) (by omega) (by omega) hhi
        (by rw [hb]; exact hlen)).mono ?_
      rintro r s2 ⟨c3, c4⟩
      exact ⟨c1.trans hb c3, fun e => (c4 e).trans hb⟩

theorem markerLoop_ok {b : Buffer} {str len : Nat} : ∀ n i, 2 ≤ i → len < n + i → 0 < n →
    ∃ r, markerLoop b str len n i = .ok r ∧ (r = 0 ∨ (str + 3 ≤ r ∧ r ≤ str + len))
  | 0, _, _, _, h => absurd h (Nat.lt_irrefl _)
  | n + 1, i, hi, hn, _ => by
    have ih : ∀ k, 0 < k → i < len → ∃ r, markerLoop b str len n (i + k) = .ok r ∧ (r = 0 ∨ (str + 3 ≤ r ∧ r ≤ str + len)) :=
      fun k hk hl => markerLoop_ok n (i + k) (by omega) (by omega) (by omega)
    unfold markerLoop
    dsimp only
    split
    · rename_i hl
      split
      · rw [csub_of_le (show 1 ≤ str + i by omega), csub_of_le (show 2 ≤ str + i by omega)]
        simp only [Bind.bind, Except.bind, Pure.pure, Except.pure]
        split
        · exact ⟨_, rfl, .inr ⟨by omega, by omega⟩⟩
        · exact ih 2 (by omega) hl
      · split
        · split
          · exact ⟨_, rfl, .inl rfl⟩
          · split
            · exact ih 4 (by omega) hl
            · rw [csub_of_le (show 1 ≤ str + i by omega)]
              simp only [Bind.bind, Except.bind, Pure.pure, Except.pure]
              split
              · exact ih 2 (by omega) hl
              · exact ⟨_, rfl, .inr ⟨by omega, by omega⟩⟩
        · exact ih 3 (by omega) hl
    · exact ⟨_, rfl, .inl rfl⟩

theorem marker_ok (b : Buffer) (str len : Nat) :
    ∃ r, magicCommentMarker b str len = .ok r ∧ (r = 0 ∨ (str + 3 ≤ r ∧ r ≤ str + len)) :=
  markerLoop_ok _ _ (Nat.le_refl _) (by omega) (by omega)

theorem magicComment_wp {x : Ext} {str len : Nat} (hd : s.buffer.input.DecOk) (ht : s.buffer.d.Tabled) (hp : 0 < s.buffer.pcur)
    (hz : Small s.buffer) (hl : str + len ≤ s.buffer.d.bytes.length) :
    Wp (magicComment x str len) (fun r s' => MF str (str + len) s s' ∧ (r.isSome = true → s'.buffer = s.buffer)) s := by
  unfold magicComment
  unfold Small at hz
  refine Wp.ite (fun h => Wp.pure ⟨.refl _ _ _, fun _ => rfl⟩) (fun h0 => ?_)
  obtain ⟨beg, e1, h1⟩ := marker_ok s.buffer str len
  refine Wp.bind (Wp.liftB beg e1 ?_)
  refine Wp.ite (fun hb => ?_) (fun hb => ?_)
  · rcases h1 with h1 | h1
    · exact absurd h1 hb
    refine Wp.bind (Wp.liftB _ (csub_of_le (by omega)) ?_)
    obtain ⟨stop, e2, h2⟩ := marker_ok s.buffer beg (str + len - beg)
    refine Wp.bind (Wp.liftB stop e2 ?_)
    refine Wp.ite (fun h => Wp.pure ⟨.refl _ _ _, fun _ => rfl⟩) (fun h3 => ?_)
    rcases h2 with h2 | h2
    · exact absurd h2 h3
    refine Wp.bind (Wp.liftB (stop - beg - 3) ?_ ?_)
    · rw [csub_of_le (by omega)]
      exact csub_of_le (by omega)
    refine Wp.ite (fun h => ?_) (fun h => absurd (by omega) h)
    exact mcLoop_wp (E := stop - 3) _ _ _ s hd ht hp (by omega) (by omega) (by omega) (by rw [if_pos rfl]; omega) hl
  · refine Wp.ite (fun h => ?_) (fun h => absurd (by omega) h)
    exact mcLoop_wp (E := str + len) _ _ _ s hd ht hp (by omega) (Nat.le_refl _) (by omega) (by rw [if_neg (by decide)]; exact Nat.le_refl _) hl

theorem sfeFind_ok {b : Buffer} {send : Nat} : ∀ n str sep, str ≤ send → send < n + str →
    ∃ r, sfeFind b send n str sep = .ok r ∧ ∀ p, r = some p → p.1 ≤ send
  | 0, str, sep, h1, h2 => absurd h2 (by omega)
  | n + 1, str, sep, h1, h2 => by
    unfold sfeFind
    rw [csub_of_le h1]
    simp only [Bind.bind, Except.bind, Pure.pure, Except.pure]
    obtain ⟨r, hr, -⟩ := substrAt_total b str (str + 6)
    rw [hr]
    dsimp only
    split
    · exact ⟨_, rfl, by simp⟩
    · have ih : ∀ k sep, 0 < k → k ≤ 6 → ∃ r, sfeFind b send n (str + k) sep = .ok r ∧ ∀ p, r = some p → p.1 ≤ send :=
        fun k sep hk h6 => sfeFind_ok n (str + k) sep (by omega) (by omega)
      repeat' split
      all_goals first
        | exact ih _ _ (by omega) (by omega)
        | exact ⟨_, rfl, by intro p hp; cases hp; dsimp only; omega⟩

theorem sfeSkip_ok {b : Buffer} {send : Nat} : ∀ n str, 0 < n → send < n + str + 1 →
    ∃ r, sfeSkip b send n str = .ok r ∧ ∀ p, r = some p → p ≤ send
  | 0, str, h, _ => absurd h (Nat.lt_irrefl _)
  | n + 1, str, _, h => by
    unfold sfeSkip
    dsimp only
    split
    · exact ⟨_, rfl, by simp⟩
    · split
      · exact ⟨_, rfl, by intro p hp; cases hp; omega⟩
      · exact sfeSkip_ok n (str + 1) (by omega) (by omega)

theorem sfeName_ok {b : Buffer} {send : Nat} : ∀ n str, b.d.bytes.length < n + str → str ≤ b.d.bytes.length →
    ∃ r, sfeName b send n str = .ok r ∧ str ≤ r ∧ r ≤ b.d.bytes.length
  | 0, str, h, h' => absurd h (by omega)
  | n + 1, str, h, h' => by
    unfold sfeName
    dsimp only
    split
    · rename_i hc
      have hlt : str < b.d.bytes.length := by
        by_contra hge
        have : b.byteAt str = none := by
          unfold Buffer.byteAt Input.byteAt
          exact List.getElem?_eq_none (by simp only [Buffer.d] at hge ⊢; omega)
        rw [this] at hc
        revert hc; simp [isC, MB.isAlnum]
      obtain ⟨r, e, h1, h2⟩ := sfeName_ok (b := b) (send := send) n (str + 1) (by omega) (by omega)
      exact ⟨r, e, by omega, h2⟩
    · exact ⟨_, rfl, Nat.le_refl _, h'⟩

theorem sfeValue_ok {b : Buffer} {send beg : Nat} (h : beg ≤ b.d.bytes.length) : sfeValue b send beg = .ok () := by
  unfold sfeValue
  obtain ⟨r, e, h1, h2⟩ := sfeName_ok (b := b) (send := send) (b.input.decoded.bytes.length + 1) beg (by simp only [Buffer.d]; omega) h
  rw [e]
  simp only [Bind.bind, Except.bind]
  rw [substrAt_ok h1 h2]
  rfl

theorem setFileEncoding_ok {b : Buffer} {str send : Nat} (h1 : str ≤ send) (h2 : send ≤ b.d.bytes.length) :
    setFileEncoding b str send = .ok () := by
  unfold setFileEncoding
  obtain ⟨r, e, hr⟩ := sfeFind_ok (b := b) (send + 1) str false h1 (by omega)
  rw [e]
  simp only [Bind.bind, Except.bind, Pure.pure, Except.pure]
  cases r with
  | none => rfl
  | some p =>
    obtain ⟨str1, sep⟩ := p
    have h3 := hr _ rfl
    dsimp only at h3 ⊢
    obtain ⟨r, e, hr⟩ := sfeSkip_ok (b := b) (send := send) (send + 1) str1 (by omega) (by omega)
    rw [e]
    dsimp only
    cases r with
    | none => rfl
    | some str2 =>
      have h4 := hr _ rfl
      dsimp only
      split
      · exact sfeValue_ok (by omega)
      · split
        · rfl
        · obtain ⟨r, e, hr⟩ := sfeSkip_ok (b := b) (send := send) (send + 1) (str2 + 1) (by omega) (by omega)
          rw [e]
          dsimp only
          cases r with
          | none => rfl
          | some str3 => exact sfeValue_ok (by have := hr _ rfl; omega)

end Verif.Lexer
