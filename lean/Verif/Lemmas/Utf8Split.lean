import Verif.Lemmas.Utf8
/-! Splitting and joining valid UTF-8 at ASCII bytes. -/
namespace Verif.Utf8

theorem lossy_scalar {bs : Bytes} (h : valid bs = true) : ∀ c ∈ lossy bs, isScalar c = true := by
  have key : ∀ n (bs : Bytes), bs.length ≤ n → (chunksN n bs).all (·.isSome) = true →
      ∀ c ∈ (chunksN n bs).map (·.getD 0xFFFD), isScalar c = true := by
    intro n
    induction n with
    | zero => intro bs h; simp at h; subst h; simp [chunksN]
    | succ n ih =>
      intro bs h hv
      cases bs with
      | nil => simp [chunksN]
      | cons b0 rest =>
        simp only [chunksN] at hv ⊢
        rcases hs : step b0 rest with ⟨c, k⟩
        have hk := step_pos b0 rest
        rw [hs] at hv hk
        simp only [List.all_cons, Bool.and_eq_true] at hv
        obtain ⟨hc, hv⟩ := hv
        obtain ⟨c, rfl⟩ := Option.isSome_iff_exists.mp hc
        obtain ⟨h1, _⟩ := step_some hs
        intro x hx
        simp only [List.map_cons, Option.getD_some, List.mem_cons] at hx
        rcases hx with rfl | hx
        · exact h1
        · exact ih ((b0 :: rest).drop k) (by simp at h hk ⊢; omega) hv x hx
  exact key _ _ (Nat.le_refl _) h

/-- Valid text is the encoding of scalar values. -/
theorem valid_iff {bs : Bytes} : valid bs = true ↔ ∃ cs, (∀ c ∈ cs, isScalar c = true) ∧ bs = encodeAll cs :=
  ⟨fun h => ⟨_, lossy_scalar h, (encodeAll_lossy h).symm⟩, fun ⟨_, h, e⟩ => e ▸ valid_encodeAll h⟩

theorem encodeAll_cons (c : Nat) (cs : List Nat) : encodeAll (c :: cs) = encode c ++ encodeAll cs := by simp [encodeAll]
theorem encodeAll_append (a b : List Nat) : encodeAll (a ++ b) = encodeAll a ++ encodeAll b := by simp [encodeAll]

theorem valid_append {a b : Bytes} (ha : valid a = true) (hb : valid b = true) : valid (a ++ b) = true := by
  obtain ⟨x, hx, rfl⟩ := valid_iff.1 ha
  obtain ⟨y, hy, rfl⟩ := valid_iff.1 hb
  refine valid_iff.2 ⟨x ++ y, ?_, (encodeAll_append x y).symm⟩
  intro c hc
  rcases List.mem_append.1 hc with h | h
  · exact hx c h
  · exact hy c h

theorem valid_nil : valid [] = true := rfl

theorem valid_ascii1 {c : UInt8} (h : c < 128) : valid [c] = true := by
  have : c.toNat < 128 := h
  simp [valid, chunks, chunksN, step, this]

/-- A character is one ASCII byte or has no ASCII byte. -/
theorem encode_bytes {c : Nat} (h : isScalar c = true) : (∃ x : UInt8, x < 128 ∧ encode c = [x]) ∨ ∀ x ∈ encode c, 128 ≤ x := by
  have hb : c < 0x110000 := by
    unfold isScalar at h; simp only [Bool.or_eq_true, decide_eq_true_eq, Bool.and_eq_true] at h; omega
  unfold encode
  have le : ∀ n : Nat, 128 ≤ n → n < 256 → (128 : UInt8) ≤ n.toUInt8 := by
    intro n h1 h2
    rw [UInt8.le_iff_toNat_le, toUInt8_toNat, Nat.mod_eq_of_lt h2]; exact h1
  split
  · left
    refine ⟨_, ?_, rfl⟩
    rw [UInt8.lt_iff_toNat_lt, toUInt8_toNat, Nat.mod_eq_of_lt (by omega)]
    assumption
  · right
    split
    · intro x hx
      simp only [List.mem_cons, List.not_mem_nil, or_false] at hx
      rcases hx with rfl | rfl <;> exact le _ (by omega) (by omega)
    · split
      · intro x hx
        simp only [List.mem_cons, List.not_mem_nil, or_false] at hx
        rcases hx with rfl | rfl | rfl <;> exact le _ (by omega) (by omega)
      · intro x hx
        simp only [List.mem_cons, List.not_mem_nil, or_false] at hx
        rcases hx with rfl | rfl | rfl | rfl <;> exact le _ (by omega) (by omega)

theorem encodeAll_split (cs : List Nat) (h : ∀ c ∈ cs, isScalar c = true) : ∀ (a b : Bytes) (x : UInt8), x < 128 → encodeAll cs = a ++ x :: b →
    valid a = true ∧ valid b = true := by
  induction cs with
  | nil => intro a b x _ e; simp [encodeAll] at e
  | cons c cs ih =>
    intro a b x hx e
    have ih := ih fun c hc => h c (by simp [hc])
    have hcs := valid_encodeAll (cs := cs) fun c hc => h c (by simp [hc])
    rw [encodeAll_cons] at e
    rcases encode_bytes (h c (by simp)) with ⟨y, hy, ey⟩ | hall
    · rw [ey] at e
      cases a with
      | nil =>
        simp only [List.cons_append, List.nil_append, List.cons.injEq] at e
        exact ⟨rfl, e.2 ▸ hcs⟩
      | cons a0 a =>
        simp only [List.cons_append, List.nil_append, List.cons.injEq] at e
        obtain ⟨h1, h2⟩ := ih a b x hx e.2
        refine ⟨?_, h2⟩
        rw [← e.1]
        exact valid_append (a := [y]) (valid_ascii1 hy) h1
    · rcases List.append_eq_append_iff.1 e with ⟨t, h1, h2⟩ | ⟨t, h1, h2⟩
      · obtain ⟨h3, h4⟩ := ih t b x hx h2
        refine ⟨?_, h4⟩
        rw [h1]
        refine valid_append ?_ h3
        have := valid_encodeAll (cs := [c]) (by intro d hd; simp at hd; subst hd; exact h d (by simp))
        simpa [encodeAll] using this
      · cases t with
        | nil =>
          simp only [List.nil_append] at h2
          obtain ⟨h3, h4⟩ := ih [] b x hx h2.symm
          refine ⟨?_, h4⟩
          rw [List.append_nil] at h1
          rw [← h1]
          have := valid_encodeAll (cs := [c]) (by intro d hd; simp at hd; subst hd; exact h d (by simp))
          simpa [encodeAll] using this
        | cons t0 t =>
          simp only [List.cons_append, List.cons.injEq] at h2
          have := hall x (by rw [h1, h2.1]; simp)
          exact absurd hx (by rw [UInt8.lt_iff_toNat_lt]; rw [UInt8.le_iff_toNat_le] at this; omega)

/-- Valid text splits at an ASCII byte. -/
theorem valid_split {a b : Bytes} {x : UInt8} (hx : x < 128) : valid (a ++ x :: b) = true ↔ valid a = true ∧ valid b = true := by
  constructor
  · intro h
    obtain ⟨cs, hcs, e⟩ := valid_iff.1 h
    exact encodeAll_split cs hcs a b x hx e.symm
  · rintro ⟨ha, hb⟩
    rw [show a ++ x :: b = a ++ ([x] ++ b) by simp]
    exact valid_append ha (valid_append (valid_ascii1 hx) hb)

/-- A cut behind an ASCII byte gives valid pieces. -/
theorem valid_cut {bs : Bytes} (h : valid bs = true) {i : Nat} {x : UInt8} (hi : 0 < i) (hx : bs[i - 1]? = some x) (hax : x < 128) :
    valid (bs.take i) = true ∧ valid (bs.drop i) = true := by
  obtain ⟨hlt, hget⟩ := List.getElem?_eq_some_iff.1 hx
  have e : bs = bs.take (i - 1) ++ x :: bs.drop i := by
    conv => lhs; rw [← List.take_append_drop (i - 1) bs]
    rw [List.drop_eq_getElem_cons hlt, hget, Nat.sub_add_cancel hi]
  have h1 := h
  rw [e] at h1
  obtain ⟨h2, h3⟩ := (valid_split hax).1 h1
  refine ⟨?_, h3⟩
  have : bs.take i = bs.take (i - 1) ++ x :: [] := by
    rw [show i = i - 1 + 1 by omega, List.take_add_one, Nat.add_sub_cancel, hx]; rfl
  rw [this]
  exact (valid_split hax).2 ⟨h2, rfl⟩
end Verif.Utf8
