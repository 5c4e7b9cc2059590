import Verif.Model.Utf8
/-! Helper lemmas about UTF-8. -/
namespace Verif.Utf8

theorem u8_ext {a b : UInt8} (h : a.toNat = b.toNat) : a = b := UInt8.toNat_inj.mp h

theorem u8_lt (b : UInt8) : b.toNat < 256 := UInt8.toNat_lt b

@[simp] theorem toUInt8_toNat (n : Nat) : n.toUInt8.toNat = n % 256 := by
  simp [Nat.toUInt8]

theorem step_some {b0 : UInt8} {rest : Bytes} {c k : Nat} (h : step b0 rest = (some c, k)) :
    isScalar c = true ∧ ∃ tl, rest = (encode c).drop 1 ++ tl ∧ encode c = b0 :: (encode c).drop 1
      ∧ k = (encode c).length := by
  have hb0 := u8_lt b0
  unfold step at h
  simp only [inR, Bool.and_eq_true, decide_eq_true_eq] at h
  split at h
  · simp only [Prod.mk.injEq, Option.some.injEq] at h
    obtain ⟨rfl, rfl⟩ := h
    refine ⟨by simp [isScalar]; omega, rest, ?_, ?_, ?_⟩ <;> simp [encode, *]
  split at h
  · split at h
    · rename_i b1 tl
      have hb1 := u8_lt b1
      split at h
      · simp only [Prod.mk.injEq, Option.some.injEq] at h
        obtain ⟨rfl, rfl⟩ := h
        have e1 : ¬ (b0.toNat % 32 * 64 + b1.toNat % 64 < 0x80) := by omega
        have e2 : (b0.toNat % 32 * 64 + b1.toNat % 64 < 0x800) := by omega
        refine ⟨by simp [isScalar]; omega, tl, ?_, ?_, ?_⟩ <;> simp only [encode, e1, e2, if_true, if_false]
        · simp; apply u8_ext; simp; omega
        · simp; apply u8_ext; simp; omega
        · simp
      · simp at h
    · simp at h
  split at h
  · generalize hlo : (if b0.toNat = 0xE0 then 0xA0 else 0x80) = lo at h
    generalize hhi : (if b0.toNat = 0xED then 0x9F else 0xBF) = hi at h
    split at h
    · rename_i b1 tl
      have hb1 := u8_lt b1
      split at h
      · split at h
        · rename_i b2 tl
          have hb2 := u8_lt b2
          split at h
          · simp only [Prod.mk.injEq, Option.some.injEq] at h
            obtain ⟨rfl, rfl⟩ := h
            have lo : b0.toNat % 16 * 4096 + b1.toNat % 64 * 64 + b2.toNat % 64 ≥ 0x800 ∧
                ¬ (0xD800 ≤ b0.toNat % 16 * 4096 + b1.toNat % 64 * 64 + b2.toNat % 64 ∧
                  b0.toNat % 16 * 4096 + b1.toNat % 64 * 64 + b2.toNat % 64 < 0xE000) := by
              split at hlo <;> split at hhi <;> omega
            have e1 : ¬ (b0.toNat % 16 * 4096 + b1.toNat % 64 * 64 + b2.toNat % 64 < 0x80) := by omega
            have e2 : ¬ (b0.toNat % 16 * 4096 + b1.toNat % 64 * 64 + b2.toNat % 64 < 0x800) := by omega
            have e3 : (b0.toNat % 16 * 4096 + b1.toNat % 64 * 64 + b2.toNat % 64 < 0x10000) := by omega
            have hb1' : 0x80 ≤ b1.toNat ∧ b1.toNat ≤ 0xBF := by split at hlo <;> split at hhi <;> omega
            refine ⟨by simp [isScalar]; omega, tl, ?_, ?_, ?_⟩ <;>
              simp only [encode, e1, e2, e3, if_true, if_false]
            · simp; constructor <;> (apply u8_ext; simp; omega)
            · simp; apply u8_ext; simp; omega
            · simp
          · simp at h
        · simp at h
      · simp at h
    · simp at h
  split at h
  · generalize hlo : (if b0.toNat = 0xF0 then 0x90 else 0x80) = lo at h
    generalize hhi : (if b0.toNat = 0xF4 then 0x8F else 0xBF) = hi at h
    split at h
    · rename_i b1 tl
      have hb1 := u8_lt b1
      split at h
      · split at h
        · rename_i b2 tl
          have hb2 := u8_lt b2
          split at h
          · split at h
            · rename_i b3 tl
              have hb3 := u8_lt b3
              split at h
              · simp only [Prod.mk.injEq, Option.some.injEq] at h
                obtain ⟨rfl, rfl⟩ := h
                generalize hc : b0.toNat % 8 * 262144 + b1.toNat % 64 * 4096 + b2.toNat % 64 * 64 + b3.toNat % 64 = c
                have lo : c ≥ 0x10000 ∧ c < 0x110000 := by
                  split at hlo <;> split at hhi <;> omega
                have hb1' : 0x80 ≤ b1.toNat ∧ b1.toNat ≤ 0xBF := by split at hlo <;> split at hhi <;> omega
                have e1 : ¬ (c < 0x80) := by omega
                have e2 : ¬ (c < 0x800) := by omega
                have e3 : ¬ (c < 0x10000) := by omega
                refine ⟨by simp [isScalar]; omega, tl, ?_, ?_, ?_⟩ <;>
                  simp only [encode, e1, e2, e3, if_false]
                · simp; refine ⟨?_, ?_, ?_⟩ <;> (apply u8_ext; simp; omega)
                · simp; apply u8_ext; simp; omega
                · simp
              · simp at h
            · simp at h
          · simp at h
        · simp at h
      · simp at h
    · simp at h
  · simp at h

theorem encode_ne_nil (c : Nat) : encode c ≠ [] := by
  unfold encode; split <;> (try split) <;> (try split) <;> simp

theorem step_encode {c : Nat} (h : isScalar c = true) (tl : Bytes) :
    ∃ b0 rest, encode c = b0 :: rest ∧ step b0 (rest ++ tl) = (some c, (encode c).length) := by
  simp [isScalar] at h
  unfold encode
  split
  · refine ⟨_, _, rfl, ?_⟩
    simp only [step, toUInt8_toNat]
    rw [if_pos (by omega), show c % 256 = c by omega]; rfl
  split
  · refine ⟨_, _, rfl, ?_⟩
    simp only [step, inR, toUInt8_toNat, Bool.and_eq_true, decide_eq_true_eq, List.cons_append, List.nil_append]
    rw [if_neg (by omega), if_pos (by omega), if_pos (by omega)]
    simp; omega
  split
  · refine ⟨_, _, rfl, ?_⟩
    simp only [step, inR, toUInt8_toNat, Bool.and_eq_true, decide_eq_true_eq, List.cons_append, List.nil_append]
    rw [if_neg (by omega), if_neg (by omega), if_pos (by omega), if_pos (by split <;> split <;> omega),
      if_pos (by omega)]
    simp; omega
  · refine ⟨_, _, rfl, ?_⟩
    simp only [step, inR, toUInt8_toNat, Bool.and_eq_true, decide_eq_true_eq, List.cons_append, List.nil_append]
    rw [if_neg (by omega), if_neg (by omega), if_neg (by omega), if_pos (by omega),
      if_pos (by split <;> split <;> omega), if_pos (by omega), if_pos (by omega)]
    simp; omega

theorem step_pos (b0 : UInt8) (rest : Bytes) : 1 ≤ (step b0 rest).2 := by
  unfold step; simp only []
  repeat' split
  all_goals simp

theorem chunksN_valid (n : Nat) : ∀ bs : Bytes, bs.length ≤ n →
    (chunksN n bs).all (·.isSome) = true → encodeAll ((chunksN n bs).map (·.getD 0xFFFD)) = bs := by
  induction n with
  | zero => intro bs h; simp at h; subst h; simp [chunksN, encodeAll]
  | succ n ih =>
    intro bs h hv
    cases bs with
    | nil => simp [chunksN, encodeAll]
    | cons b0 rest =>
      simp only [chunksN] at hv ⊢
      rcases hs : step b0 rest with ⟨c, k⟩
      have hk := step_pos b0 rest
      rw [hs] at hv hk
      simp only [List.all_cons, Bool.and_eq_true] at hv
      obtain ⟨hc, hv⟩ := hv
      obtain ⟨c, rfl⟩ := Option.isSome_iff_exists.mp hc
      obtain ⟨h1, tl, h2, h3, h4⟩ := step_some hs
      have hd : (b0 :: rest).drop k = tl := by
        rw [h2, h4]
        conv => lhs; rw [← List.cons_append, ← h3]
        simp
      have := ih ((b0 :: rest).drop k) (by simp at h hk ⊢; omega) hv
      simp only [List.map_cons, Option.getD_some]
      unfold encodeAll at this ⊢
      rw [List.map_cons, List.flatten_cons, this, hd, h2, ← List.cons_append, ← h3]

theorem encodeAll_lossy {bs : Bytes} (h : valid bs = true) : encodeAll (lossy bs) = bs :=
  chunksN_valid _ _ (Nat.le_refl _) h

theorem chunksN_encodeAll (cs : List Nat) : (∀ c ∈ cs, isScalar c = true) →
    ∀ n, (encodeAll cs).length ≤ n → chunksN n (encodeAll cs) = cs.map some := by
  induction cs with
  | nil => intro _ n _; cases n <;> simp [encodeAll, chunksN]
  | cons c cs ih =>
    intro h n hn
    have hc := h c (by simp)
    have e : encodeAll (c :: cs) = encode c ++ encodeAll cs := by simp [encodeAll]
    obtain ⟨b0, rest, h1, h2⟩ := step_encode hc (encodeAll cs)
    have hl : 0 < (encode c).length := List.length_pos_iff.mpr (encode_ne_nil c)
    rw [e, List.length_append] at hn
    obtain ⟨n, rfl⟩ : ∃ m, n = m + 1 := ⟨n - 1, by omega⟩
    have e2 : encode c ++ encodeAll cs = b0 :: (rest ++ encodeAll cs) := by rw [h1]; simp
    have e3 : (b0 :: (rest ++ encodeAll cs)).drop (encode c).length = encodeAll cs := by rw [← e2]; simp
    rw [e, e2]
    simp only [chunksN, h2, List.map_cons, e3]
    rw [ih (fun c hc => h c (by simp [hc])) n (by omega)]

theorem lossy_encodeAll {cs : List Nat} (h : ∀ c ∈ cs, isScalar c = true) : lossy (encodeAll cs) = cs := by
  unfold lossy chunks
  rw [chunksN_encodeAll cs h _ (Nat.le_refl _)]
  simp [Function.comp_def]

theorem valid_encodeAll {cs : List Nat} (h : ∀ c ∈ cs, isScalar c = true) : valid (encodeAll cs) = true := by
  unfold valid chunks
  rw [chunksN_encodeAll cs h _ (Nat.le_refl _)]
  simp

/-- Decoding starts with an ASCII scalar exactly when the bytes do. -/
theorem lossy_cons_ascii {b : UInt8} (hb : b.toNat < 128) (bs : Bytes) : lossy (b :: bs) = b.toNat :: lossy bs := by
  have hs : step b bs = (some b.toNat, 1) := by simp [step, hb]
  simp [lossy, chunks, chunksN, hs]

theorem chunksN_mono (n : Nat) : ∀ (bs : Bytes) (m : Nat), bs.length ≤ n → n ≤ m →
    chunksN m bs = chunksN n bs := by
  induction n with
  | zero => intro bs m h _; simp at h; subst h; cases m <;> simp [chunksN]
  | succ n ih =>
    intro bs m h hm
    obtain ⟨m, rfl⟩ : ∃ k, m = k + 1 := ⟨m - 1, by omega⟩
    cases bs with
    | nil => simp [chunksN]
    | cons b rest =>
      have := step_pos b rest
      simp only [chunksN]
      rw [ih _ m (by simp at h ⊢; omega) (by omega)]

theorem lossy_cons_not_ascii {b : UInt8} (hb : 128 ≤ b.toNat) (bs : Bytes) :
    ∃ n t, lossy (b :: bs) = n :: t ∧ 128 ≤ n := by
  rcases hs : step b bs with ⟨c, k⟩
  simp only [lossy, chunks, List.length_cons, chunksN, hs, List.map_cons]
  refine ⟨_, _, rfl, ?_⟩
  cases c with
  | none => simp
  | some c =>
    simp only [Option.getD_some]
    obtain ⟨_, tl, _, h3, _⟩ := step_some hs
    by_cases hc : c < 0x80
    · simp [encode, hc] at h3
      rw [← h3] at hb; simp at hb; omega
    · omega

end Verif.Utf8
