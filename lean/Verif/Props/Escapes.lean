import Verif.Lemmas.LexTac
import Verif.Lemmas.Utf8
import Verif.Model.Lexer.String
/-!
C27 (octal and hexadecimal scanning) and C26 (Unicode escapes).
-/
namespace Verif.Lexer
open Spec

/-! ### Specification of digits -/

/-- Value of a hexadecimal digit, by the table of digits. -/
def Digits.hex (c : UInt8) : Option Nat :=
  ((ascs "0123456789abcdef").idxOf? c).or ((ascs "0123456789ABCDEF").idxOf? c)

/-- Value of an octal digit. -/
def Digits.oct (c : UInt8) : Option Nat := (ascs "01234567").idxOf? c

/-- The longest prefix of digits. -/
def Digits.run (dig : UInt8 → Option Nat) (bs : Bytes) : Bytes := bs.takeWhile fun c => (dig c).isSome

/-- Positional value. -/
def Digits.value (base : Nat) (dig : UInt8 → Option Nat) (ds : Bytes) : Nat :=
  ds.foldl (fun acc c => acc * base + (dig c).getD 0) 0

/-- A statement about all bytes by cases. -/
theorem u8_forall {p : UInt8 → Prop} (h : ∀ n : Fin 256, p (UInt8.ofNat n.val)) (c : UInt8) : p c := by
  have := h ⟨c.toNat, UInt8.toNat_lt c⟩
  simpa using this

theorem hexVal_eq (c : UInt8) : hexVal c = Digits.hex c := by
  revert c; exact u8_forall (by decide +kernel)

theorem oct_eq (c : UInt8) : Digits.oct c = if 48 ≤ c && c ≤ 55 then some (c.toNat - 48) else none := by
  revert c; exact u8_forall (by decide +kernel)

theorem hex_lt (c : UInt8) : (Digits.hex c).getD 0 < 16 := by
  revert c; exact u8_forall (by decide +kernel)

theorem oct_lt (c : UInt8) : (Digits.oct c).getD 0 < 8 := by
  revert c; exact u8_forall (by decide +kernel)

theorem hex_lf : Digits.hex 10 = none := by decide
theorem oct_lf : Digits.oct 10 = none := by decide

theorem foldl_mod (base : Nat) (dig : UInt8 → Option Nat) (m : Nat) (ds : Bytes) : ∀ a b, a % m = b % m →
    ds.foldl (fun acc c => acc * base + (dig c).getD 0) a % m = ds.foldl (fun acc c => acc * base + (dig c).getD 0) b % m := by
  induction ds with
  | nil => intro a b h; exact h
  | cons c ds ih =>
    intro a b h
    simp only [List.foldl_cons]
    apply ih
    rw [Nat.add_mod, Nat.mul_mod, h, ← Nat.mul_mod, ← Nat.add_mod]

theorem drop_cons {bs : Bytes} {i : Nat} {c : UInt8} (h : bs[i]? = some c) : bs.drop i = c :: bs.drop (i + 1) := by
  rw [List.getElem?_eq_some_iff] at h
  obtain ⟨hi, rfl⟩ := h
  exact List.drop_eq_getElem_cons hi

theorem scanHex_eq (b : Buffer) : ∀ len start result, result < 2 ^ 64 →
    scanHex b len start result =
      ((Digits.run Digits.hex ((b.d.bytes.drop start).take len)).foldl (fun acc c => acc * 16 + (Digits.hex c).getD 0) result % 2 ^ 64,
       (Digits.run Digits.hex ((b.d.bytes.drop start).take len)).length) := by
  intro len
  induction len with
  | zero => intro start result h; simp [scanHex, Digits.run, Nat.mod_eq_of_lt h]
  | succ n ih =>
    intro start result h
    unfold scanHex
    simp only [Buffer.byteAt, Input.byteAt]
    cases hc : b.input.decoded.bytes[start]? with
    | none =>
      have : b.input.decoded.bytes.drop start = [] := by
        rw [List.drop_eq_nil_iff]; simpa using hc
      simp [Digits.run, this, Nat.mod_eq_of_lt h]
    | some c =>
      rw [drop_cons hc, List.take_succ_cons]
      dsimp only
      rw [hexVal_eq]
      cases hd : Digits.hex c with
      | none => simp [Digits.run, hd, Nat.mod_eq_of_lt h]
      | some v =>
        have hv : v < 16 := by have := hex_lt c; simpa [hd] using this
        have hlt : result * 16 % 2 ^ 64 + v < 2 ^ 64 := by omega
        dsimp only
        rw [ih _ _ hlt]
        simp only [Digits.run, List.takeWhile_cons, hd, Option.isSome_some, if_true, List.foldl_cons, Option.getD_some,
          List.length_cons, Prod.mk.injEq, and_true]
        exact foldl_mod 16 Digits.hex _ _ _ _ (by simp)

theorem scanOct_eq (b : Buffer) : ∀ len start result, result < 2 ^ 64 →
    scanOct b len start result =
      ((Digits.run Digits.oct ((b.d.bytes.drop start).take len)).foldl (fun acc c => acc * 8 + (Digits.oct c).getD 0) result % 2 ^ 64,
       (Digits.run Digits.oct ((b.d.bytes.drop start).take len)).length) := by
  intro len
  induction len with
  | zero => intro start result h; simp [scanOct, Digits.run, Nat.mod_eq_of_lt h]
  | succ n ih =>
    intro start result h
    unfold scanOct
    simp only [Buffer.byteAt, Input.byteAt]
    cases hc : b.input.decoded.bytes[start]? with
    | none =>
      have : b.input.decoded.bytes.drop start = [] := by
        rw [List.drop_eq_nil_iff]; simpa using hc
      simp [Digits.run, this, Nat.mod_eq_of_lt h]
    | some c =>
      rw [drop_cons hc, List.take_succ_cons]
      dsimp only
      have ho := oct_eq c
      split
      · rename_i hcc
        rw [if_pos hcc] at ho
        have hv : c.toNat - 48 < 8 := by have := oct_lt c; simpa [ho] using this
        have hlt : result * 8 % 2 ^ 64 + (c.toNat - 48) < 2 ^ 64 := by omega
        rw [ih _ _ hlt]
        simp only [Digits.run, List.takeWhile_cons, ho, Option.isSome_some, if_true, List.foldl_cons, Option.getD_some,
          List.length_cons, Prod.mk.injEq, and_true]
        exact foldl_mod 8 Digits.oct _ _ _ _ (by simp)
      · rename_i hcc
        rw [if_neg hcc] at ho
        simp [Digits.run, ho, Nat.mod_eq_of_lt h]

theorem run_mem {dig : UInt8 → Option Nat} {bs : Bytes} {c : UInt8} (h : c ∈ Digits.run dig bs) : (dig c).isSome = true := by
  unfold Digits.run at h
  induction bs with
  | nil => simp at h
  | cons x xs ih =>
    rw [List.takeWhile_cons] at h
    split at h
    · rcases List.mem_cons.1 h with rfl | h
      · assumption
      · exact ih h
    · simp at h

theorem run_prefix (dig : UInt8 → Option Nat) (bs : Bytes) (len : Nat) : Digits.run dig (bs.take len) <+: bs :=
  (List.takeWhile_prefix _).trans (List.take_prefix _ _)

theorem run_get {dig : UInt8 → Option Nat} {bs : Bytes} {start len j : Nat}
    (h : j < (Digits.run dig ((bs.drop start).take len)).length) :
    ∃ c, bs[start + j]? = some c ∧ (dig c).isSome = true := by
  refine ⟨(Digits.run dig ((bs.drop start).take len))[j], ?_, run_mem (List.getElem_mem h)⟩
  have := (run_prefix dig (bs.drop start) len).getElem h
  rw [this]
  have hl := (run_prefix dig (bs.drop start) len).length_le
  rw [List.length_drop] at hl
  rw [List.getElem_drop, List.getElem?_eq_getElem]

/-- A run of digits stays on the line. -/
theorem run_on_line {b : Buffer} (hg : Good b) {dig : UInt8 → Option Nat} (hlf : dig 10 = none) {start len : Nat}
    (h1 : b.pbeg ≤ start) (h4 : start < b.pend) :
    start + (Digits.run dig ((b.d.bytes.drop start).take len)).length ≤ b.pend := by
  have hlen := (run_prefix dig (b.d.bytes.drop start) len).length_le
  rw [List.length_drop] at hlen
  have := hg.pend_le
  refine hg.span h1 h4 (by omega) ?_
  intro j hj1 hj2 hlfj
  obtain ⟨c, hc, hd⟩ := run_get (dig := dig) (bs := b.d.bytes) (start := start) (len := len) (j := j - start) (by omega)
  rw [show start + (j - start) = j by omega, hlfj] at hc
  cases hc
  rw [hlf] at hd
  simp at hd

/-- Nothing follows an unterminated line. -/
theorem Mid.at_end {b : Buffer} (h : Mid b) (he : b.pcur = b.pend) : b.pend = b.d.bytes.length := by
  by_cases e : b.lastline + 1 < b.d.lines.length
  · have := h.tab.last_lf e
    rw [← h.stop, ← he] at this
    exact absurd this h.nolf
  · have h3 := h.tab.last_stop
    rw [show b.d.lines.length - 1 = b.lastline by have := h.llen; omega, ← h.stop] at h3
    exact h3

theorem run_on_line_mid {b : Buffer} (h : Mid b) {dig : UInt8 → Option Nat} (hlf : dig 10 = none) (len : Nat) :
    b.pcur + (Digits.run dig ((b.d.bytes.drop b.pcur).take len)).length ≤ b.pend := by
  by_cases e : b.pcur < b.pend
  · exact run_on_line h.toGood hlf h.lo e
  · have e' : b.pcur = b.pend := by have := h.hi; omega
    have := Mid.at_end h e'
    have hlen := (run_prefix dig (b.d.bytes.drop b.pcur) len).length_le
    rw [List.length_drop] at hlen
    omega

/-! ### C27 -/

/-- C27: the hexadecimal scanner consumes exactly the longest run of digits among the next `len` bytes and returns its
value (on 64-bit words: modulo `2^64`). -/
theorem C27_scan_hex (b : Buffer) (len start : Nat) :
    scanHex b len start 0 =
      (Digits.value 16 Digits.hex (Digits.run Digits.hex ((b.d.bytes.drop start).take len)) % 2 ^ 64,
       (Digits.run Digits.hex ((b.d.bytes.drop start).take len)).length) :=
  scanHex_eq b len start 0 (by decide)

/-- C27: the octal scanner likewise. -/
theorem C27_scan_oct (b : Buffer) (len start : Nat) :
    scanOct b len start 0 =
      (Digits.value 8 Digits.oct (Digits.run Digits.oct ((b.d.bytes.drop start).take len)) % 2 ^ 64,
       (Digits.run Digits.oct ((b.d.bytes.drop start).take len)).length) :=
  scanOct_eq b len start 0 (by decide)

theorem value_lt (base : Nat) (dig : UInt8 → Option Nat) (h : ∀ c, (dig c).getD 0 < base) (ds : Bytes) :
    Digits.value base dig ds < base ^ ds.length := by
  have hb : 0 < base := Nat.lt_of_le_of_lt (Nat.zero_le _) (h 0)
  have : ∀ a, ds.foldl (fun acc c => acc * base + (dig c).getD 0) a < (a + 1) * base ^ ds.length := by
    induction ds with
    | nil => intro a; simp
    | cons c ds ih =>
      intro a
      simp only [List.foldl_cons, List.length_cons]
      refine Nat.lt_of_lt_of_le (ih _) ?_
      rw [Nat.pow_succ, Nat.mul_comm (base ^ ds.length) base, ← Nat.mul_assoc]
      refine Nat.mul_le_mul_right _ ?_
      have := h c
      rw [Nat.add_mul, Nat.one_mul]
      omega
  have := this 0
  simpa [Digits.value] using this

/-- C27: up to 16 hexadecimal or 21 octal digits the value is exact. -/
theorem C27_exact (b : Buffer) (len start : Nat) :
    (len ≤ 16 → (scanHex b len start 0).1 = Digits.value 16 Digits.hex (Digits.run Digits.hex ((b.d.bytes.drop start).take len))) ∧
    (len ≤ 21 → (scanOct b len start 0).1 = Digits.value 8 Digits.oct (Digits.run Digits.oct ((b.d.bytes.drop start).take len))) := by
  have hl : ∀ dig, (Digits.run dig ((b.d.bytes.drop start).take len)).length ≤ len := by
    intro dig
    refine Nat.le_trans (List.takeWhile_prefix _).length_le ?_
    rw [List.length_take]; omega
  constructor
  · intro h
    rw [C27_scan_hex]
    refine Nat.mod_eq_of_lt (Nat.lt_of_lt_of_le (value_lt 16 _ hex_lt _) ?_)
    exact Nat.le_trans (Nat.pow_le_pow_right (by decide) (Nat.le_trans (hl _) h)) (by decide)
  · intro h
    rw [C27_scan_oct]
    refine Nat.lt_of_lt_of_le (value_lt 8 _ oct_lt _) ?_ |> Nat.mod_eq_of_lt
    exact Nat.le_trans (Nat.pow_le_pow_right (by decide) (Nat.le_trans (hl _) h)) (by decide)

/-- C27: at most `len` digits are consumed, and never beyond the end of the current line: not from a position before the end
of the line, and not after a character of the line that is not its line feed. -/
theorem C27_bounds (b : Buffer) (len start : Nat) (hg : Good b) :
    (scanHex b len start 0).2 ≤ len ∧ (scanOct b len start 0).2 ≤ len ∧
    (b.pbeg ≤ start → start < b.pend →
      start + (scanHex b len start 0).2 ≤ b.pend ∧ start + (scanOct b len start 0).2 ≤ b.pend) ∧
    (Mid b → b.pcur + (scanHex b len b.pcur 0).2 ≤ b.pend ∧ b.pcur + (scanOct b len b.pcur 0).2 ≤ b.pend) := by
  have hl : ∀ dig, (Digits.run dig ((b.d.bytes.drop start).take len)).length ≤ len := by
    intro dig
    refine Nat.le_trans (List.takeWhile_prefix _).length_le ?_
    rw [List.length_take]; omega
  simp only [C27_scan_hex, C27_scan_oct]
  exact ⟨hl _, hl _, fun h1 h2 => ⟨run_on_line hg hex_lf h1 h2, run_on_line hg oct_lf h1 h2⟩,
    fun hm => ⟨run_on_line_mid hm hex_lf len, run_on_line_mid hm oct_lf len⟩⟩

example : ((Buffer.new "x" (ascs "1Fg7\n") none).toOption.map fun b => (scanHex b 4 0 0, scanOct b 4 0 0)) =
    some ((31, 2), (1, 1)) := by decide +kernel

/-! ### C26 -/

/-- The digits of a code point escape at `pos`: exactly four, or up to the end of the line inside braces. -/
def uDigits (b : Buffer) (wide : Bool) : Bytes :=
  Digits.run Digits.hex ((b.d.bytes.drop b.pcur).take (if wide then b.pend - b.pcur else 4))

/-- Number of digits allowed by the notation. -/
def uWellFormed (wide : Bool) (ds : Bytes) : Prop := if wide then 1 ≤ ds.length ∧ ds.length ≤ 6 else ds.length = 4

/-- The state after the digits `ds`, with `text` appended to the literal. -/
def afterDigits (s : Lexer) (ds text : Bytes) : Lexer :=
  { s with tokenbuf := s.tokenbuf ++ text
           buffer := { s.buffer with ptok := s.buffer.pcur, pcur := s.buffer.pcur + ds.length } }

/-- A surrogate code point. -/
def isSurrogate (n : Nat) : Prop := 0xD800 ≤ n ∧ n ≤ 0xDFFF

theorem and_f800 (n : Nat) (h : n ≤ 0x10ffff) : n &&& 0xfffff800 = 0xd800 ↔ isSurrogate n := by
  have h1 : n &&& 0xfffff800 = n / 2048 * 2048 := by
    have : n = n / 2048 * 2048 + n % 2048 := by omega
    have e : (0xfffff800 : Nat) = 0x1fffff <<< 11 := by decide
    rw [e]
    apply Nat.eq_of_testBit_eq
    intro i
    rw [Nat.testBit_and, show n / 2048 * 2048 = (n >>> 11) <<< 11 by rw [Nat.shiftRight_eq_div_pow, Nat.shiftLeft_eq]]
    rw [Nat.testBit_shiftLeft, Nat.testBit_shiftLeft, Nat.testBit_shiftRight]
    by_cases hi : 11 ≤ i
    · simp only [hi, decide_true, Bool.true_and]
      rw [show 11 + (i - 11) = i by omega]
      by_cases hj : i - 11 < 21
      · have : Nat.testBit 0x1fffff (i - 11) = true := by
          have : (0x1fffff : Nat) = 2 ^ 21 - 1 := by decide
          rw [this, Nat.testBit_two_pow_sub_one]; simpa using hj
        simp [this]
      · have : n.testBit i = false := Nat.testBit_lt_two_pow (Nat.lt_of_le_of_lt h (Nat.lt_of_lt_of_le (by decide : 0x10ffff < 2 ^ 32) (Nat.pow_le_pow_right (by decide) (by omega))))
        simp [this]
    · simp [hi]
  rw [h1]
  unfold isSurrogate
  omega

theorem isScalar_iff (n : Nat) : Utf8.isScalar n = true ↔ n ≤ 0x10ffff ∧ ¬ isSurrogate n := by
  unfold Utf8.isScalar isSurrogate
  simp only [Bool.or_eq_true, decide_eq_true_eq, Bool.and_eq_true]
  omega

theorem u_value {b : Buffer} {wide : Bool} (hw : uWellFormed wide (uDigits b wide)) :
    scanHex b (if wide then b.pend - b.pcur else 4) b.pcur 0 =
      (Digits.value 16 Digits.hex (uDigits b wide), (uDigits b wide).length) := by
  rw [C27_scan_hex]
  refine Prod.ext ?_ rfl
  refine Nat.mod_eq_of_lt (Nat.lt_of_lt_of_le (value_lt 16 _ hex_lt _) ?_)
  refine Nat.le_trans (Nat.pow_le_pow_right (n := 16) (by decide) (j := 6) ?_) (by decide)
  change (uDigits b wide).length ≤ 6
  unfold uWellFormed at hw
  split at hw <;> omega

/-- An exact run. -/
theorem Wp.exact {α : Type} {x : LexM α} {a : α} {s t : Lexer} (h : Wp x (fun a' t' => a' = a ∧ t' = t) s) : x s = .ok (a, t) := by
  obtain ⟨a', s', e, rfl, rfl⟩ := h
  exact e

theorem tokaddCodepoint_wp {s : Lexer} {regexp wide : Bool} {Q : Bool → Lexer → Prop} (hb : s.buffer.pcur ≤ s.buffer.pend)
    (hbad : ¬ uWellFormed wide (uDigits s.buffer wide) → Q (wide && decide (0 < (uDigits s.buffer wide).length))
      { afterDigits s (uDigits s.buffer wide) [] with diagnostics := s.diagnostics ++
        [⟨.error, .InvalidUnicodeEscape, ⟨s.buffer.pcur + (uDigits s.buffer wide).length, s.buffer.pcur + (uDigits s.buffer wide).length + 1⟩⟩] })
    (hlarge : uWellFormed wide (uDigits s.buffer wide) → Digits.value 16 Digits.hex (uDigits s.buffer wide) > 0x10ffff → Q wide
      { afterDigits s (uDigits s.buffer wide) [] with diagnostics := s.diagnostics ++
        [⟨.error, .TooLargeUnicodeCodepoint, ⟨s.buffer.pcur, s.buffer.pcur + (uDigits s.buffer wide).length⟩⟩] })
    (hsur : uWellFormed wide (uDigits s.buffer wide) → isSurrogate (Digits.value 16 Digits.hex (uDigits s.buffer wide)) → Q wide
      { afterDigits s (uDigits s.buffer wide) [] with diagnostics := s.diagnostics ++
        [⟨.error, .InvalidUnicodeCodepoint, ⟨s.buffer.pcur, s.buffer.pcur + (uDigits s.buffer wide).length⟩⟩] })
    (hok : uWellFormed wide (uDigits s.buffer wide) → Utf8.isScalar (Digits.value 16 Digits.hex (uDigits s.buffer wide)) = true → Q true
      (afterDigits s (uDigits s.buffer wide)
        (if regexp then uDigits s.buffer wide else Utf8.encode (Digits.value 16 Digits.hex (uDigits s.buffer wide))))) :
    Wp (tokaddCodepoint regexp wide) Q s := by
  unfold tokaddCodepoint
  refine Wp.bind (Wp.liftB (if wide then s.buffer.pend - s.buffer.pcur else 4) ?_ ?_)
  · cases wide
    · rfl
    · simp [csub_of_le hb]
  refine Wp.bind (Wp.getB ?_)
  have hlen : (scanHex s.buffer (if wide then s.buffer.pend - s.buffer.pcur else 4) s.buffer.pcur 0).2 = (uDigits s.buffer wide).length := by
    rw [C27_scan_hex]; rfl
  rcases hsc : scanHex s.buffer (if wide then s.buffer.pend - s.buffer.pcur else 4) s.buffer.pcur 0 with ⟨v, k⟩
  rw [hsc] at hlen
  dsimp only at hlen ⊢
  subst hlen
  refine Wp.bind (Wp.pcur (Wp.bind (Wp.modB (Wp.bind (Wp.modB ?_)))))
  have hwf : (if wide then (uDigits s.buffer wide).length == 0 || decide ((uDigits s.buffer wide).length > 6) else decide ((uDigits s.buffer wide).length < 4)) = false
      ↔ uWellFormed wide (uDigits s.buffer wide) := by
    unfold uWellFormed
    have : wide = false → (uDigits s.buffer wide).length ≤ 4 := by
      rintro rfl
      refine Nat.le_trans (List.takeWhile_prefix _).length_le ?_
      rw [List.length_take]; simp; omega
    generalize (uDigits s.buffer wide).length = k at *
    cases wide
    · have := this rfl; simp; omega
    · simp; omega
  refine Wp.ite ?_ ?_
  · intro hcond
    have hnw := mt hwf.2 (by rw [Bool.not_eq_false]; exact hcond)
    have hbad := hbad hnw
    refine Wp.bind (Wp.getB (Wp.bind (Wp.modS (Wp.pure ?_))))
    simpa [afterDigits, Buffer.setPtok] using hbad
  · intro hcond
    have hw := hwf.1 (Bool.not_eq_true _ ▸ hcond)
    have hsc2 := u_value hw
    rw [hsc] at hsc2
    have hv : v = Digits.value 16 Digits.hex (uDigits s.buffer wide) := congrArg Prod.fst hsc2
    refine Wp.ite ?_ ?_
    · intro hl
      refine Wp.bind (Wp.bind (Wp.getB (Wp.modS (Wp.pure ?_))))
      have := hlarge hw (by rw [← hv]; exact hl)
      simpa [afterDigits, Buffer.setPtok] using this
    · intro hl
      have hle : v ≤ 0x10ffff := by omega
      refine Wp.ite ?_ ?_
      · intro hs
        refine Wp.bind (Wp.bind (Wp.getB (Wp.modS (Wp.pure ?_))))
        have := hsur hw (by rw [← hv]; exact (and_f800 v hle).1 hs)
        simpa [afterDigits, Buffer.setPtok] using this
      · intro hs
        have hsca := (isScalar_iff v).2 ⟨hle, mt (and_f800 v hle).2 hs⟩
        have hok := hok hw (by rw [← hv]; exact hsca)
        refine Wp.ite ?_ ?_
        · intro hre
          rw [if_pos hre] at hok
          refine Wp.bind ?_
          unfold tokcopy
          refine Wp.bind (Wp.pcurSub (by dsimp [Buffer.setPtok]; omega) ?_)
          refine Wp.bind (Wp.liftB (some (uDigits s.buffer wide)) ?_ (Wp.modS (Wp.pure hok)))
          have hl := (run_prefix Digits.hex (s.buffer.d.bytes.drop s.buffer.pcur) (if wide then s.buffer.pend - s.buffer.pcur else 4))
          have hl2 := hl.length_le
          change (uDigits s.buffer wide).length ≤ _ at hl2
          rw [List.length_drop] at hl2
          have h1 : 1 ≤ (uDigits s.buffer wide).length := by unfold uWellFormed at hw; split at hw <;> omega
          dsimp only [Buffer.setPtok]
          rw [substrAt_ok (by omega) (by dsimp only [Buffer.d] at hl2 ⊢; omega)]
          unfold Spec.slice
          rw [Nat.add_sub_cancel, Nat.add_sub_cancel_left]
          exact congrArg (fun x => Except.ok (some x)) (List.prefix_iff_eq_take.1 hl).symm
        · intro hre
          rw [if_neg hre, ← hv] at hok
          refine Wp.ite ?_ ?_
          · intro h80
            unfold tokaddmbc
            rw [if_pos ⟨by omega, hsca⟩]
            exact Wp.bind (Wp.modS (Wp.pure hok))
          · intro h80
            refine Wp.bind (Wp.modS (Wp.pure ?_))
            have : Utf8.encode v = [v.toUInt8] := by unfold Utf8.encode; rw [if_pos (by omega)]
            rw [this] at hok
            exact hok

/-- C26: a well-formed escape of a Unicode scalar value appends exactly its UTF-8 encoding and reports nothing. -/
theorem C26_scalar (s : Lexer) (wide : Bool) (hb : s.buffer.pcur ≤ s.buffer.pend)
    (hw : uWellFormed wide (uDigits s.buffer wide))
    (hv : Utf8.isScalar (Digits.value 16 Digits.hex (uDigits s.buffer wide)) = true) :
    tokaddCodepoint false wide s =
      .ok (true, afterDigits s (uDigits s.buffer wide) (Utf8.encode (Digits.value 16 Digits.hex (uDigits s.buffer wide)))) := by
  obtain ⟨h1, h2⟩ := (isScalar_iff _).1 hv
  refine Wp.exact (tokaddCodepoint_wp hb (fun h => absurd hw h) (fun _ h => ?_) (fun _ h => absurd h h2) (fun _ _ => ⟨rfl, rfl⟩))
  omega

/-- C26: the appended bytes are valid UTF-8 and decode to the code point. -/
theorem C26_encoding (v : Nat) (hv : Utf8.isScalar v = true) :
    Utf8.valid (Utf8.encode v) = true ∧ Utf8.lossy (Utf8.encode v) = [v] := by
  have h : ∀ c ∈ [v], Utf8.isScalar c = true := by simpa using hv
  have h1 := Utf8.valid_encodeAll h
  have h2 := Utf8.lossy_encodeAll h
  simp only [Utf8.encodeAll, List.map_cons, List.map_nil, List.flatten_cons, List.flatten_nil, List.append_nil] at h1 h2
  exact ⟨h1, h2⟩

/-- C26: an escape with a wrong number of digits, of a surrogate, or of a value above 10FFFF appends nothing and reports
exactly one error. -/
theorem C26_error (s : Lexer) (regexp wide : Bool) (hb : s.buffer.pcur ≤ s.buffer.pend)
    (h : ¬ uWellFormed wide (uDigits s.buffer wide) ∨
      ¬ Utf8.isScalar (Digits.value 16 Digits.hex (uDigits s.buffer wide)) = true) :
    ∃ r d, d.level = .error ∧ d.message ∈ [LexMsg.InvalidUnicodeEscape, .TooLargeUnicodeCodepoint, .InvalidUnicodeCodepoint] ∧
      tokaddCodepoint regexp wide s =
        .ok (r, { afterDigits s (uDigits s.buffer wide) [] with diagnostics := s.diagnostics ++ [d] }) := by
  by_cases hw : uWellFormed wide (uDigits s.buffer wide)
  · have hv := h.resolve_left (fun h => h hw)
    by_cases hl : Digits.value 16 Digits.hex (uDigits s.buffer wide) ≤ 0x10ffff
    · have hsur : isSurrogate (Digits.value 16 Digits.hex (uDigits s.buffer wide)) := by
        by_contra hn; exact hv ((isScalar_iff _).2 ⟨hl, hn⟩)
      refine ⟨wide, ⟨.error, .InvalidUnicodeCodepoint, ⟨s.buffer.pcur, s.buffer.pcur + (uDigits s.buffer wide).length⟩⟩, rfl, by simp,
        Wp.exact (tokaddCodepoint_wp hb (fun h => absurd hw h) (fun _ h => absurd hl (by omega)) (fun _ _ => ⟨rfl, rfl⟩) (fun _ h => absurd h hv))⟩
    · have hsur : ¬ isSurrogate (Digits.value 16 Digits.hex (uDigits s.buffer wide)) := by
        unfold isSurrogate; omega
      refine ⟨wide, ⟨.error, .TooLargeUnicodeCodepoint, ⟨s.buffer.pcur, s.buffer.pcur + (uDigits s.buffer wide).length⟩⟩, rfl, by simp,
        Wp.exact (tokaddCodepoint_wp hb (fun h => absurd hw h) (fun _ _ => ⟨rfl, rfl⟩) (fun _ h => absurd h hsur) (fun _ h => absurd h hv))⟩
  · refine ⟨wide && decide (0 < (uDigits s.buffer wide).length), ⟨.error, .InvalidUnicodeEscape, ⟨s.buffer.pcur + (uDigits s.buffer wide).length, s.buffer.pcur + (uDigits s.buffer wide).length + 1⟩⟩, rfl, by simp,
      Wp.exact (tokaddCodepoint_wp hb (fun _ => ⟨rfl, rfl⟩) (fun h => absurd h hw) (fun h => absurd h hw) (fun h => absurd h hw))⟩

/-! #### Several code points in braces -/

/-- One code point inside `\u{...}` with the white space after it. -/
structure UPart where
  digits : Bytes
  space : Bytes

/-- A code point in the notation `\u{...}`: one to six hexadecimal digits denoting a scalar value. -/
structure UPart.Ok (p : UPart) : Prop where
  hex : ∀ c ∈ p.digits, (Digits.hex c).isSome = true
  pos : 1 ≤ p.digits.length
  len : p.digits.length ≤ 6
  scalar : Utf8.isScalar (Digits.value 16 Digits.hex p.digits) = true
  space : ∀ c ∈ p.space, MB.u8Space c = true

/-- The source text of the parts. -/
def UPart.text (ps : List UPart) : Bytes := ps.flatMap fun p => p.digits ++ p.space

/-- The text they denote. -/
def UPart.utf8 (ps : List UPart) : Bytes := ps.flatMap fun p => Utf8.encode (Digits.value 16 Digits.hex p.digits)

/-- Code points are separated by white space. -/
def UPart.Separated : List UPart → Prop
  | [] => True
  | [_] => True
  | p :: ps => p.space ≠ [] ∧ UPart.Separated ps

/-- Moving to a position, with a token start and appended text. -/
def movedTo (s : Lexer) (pcur ptok : Nat) (text : Bytes) : Lexer :=
  { s with tokenbuf := s.tokenbuf ++ text, buffer := { s.buffer with pcur := pcur, ptok := ptok } }

theorem movedTo_movedTo (s : Lexer) (a b c d : Nat) (t u : Bytes) : movedTo (movedTo s a b t) c d u = movedTo s c d (t ++ u) := by
  simp [movedTo]

theorem get_of_drop {bs : Bytes} {i : Nat} {c : UInt8} {l : Bytes} (h : bs.drop i = c :: l) : bs[i]? = some c := by
  have := congrArg List.head? h
  rw [List.head?_drop] at this
  simpa using this

theorem drop_add_of {bs : Bytes} {i : Nat} {a l : Bytes} (h : bs.drop i = a ++ l) : bs.drop (i + a.length) = l := by
  rw [← List.drop_drop, h, List.drop_left]

theorem skip2_run : ∀ (sp : Bytes) (n : Nat) (s : Lexer) (last : MB) (c : UInt8) (rest : Bytes), sp.length + 1 ≤ n →
    (∀ x ∈ sp, MB.u8Space x = true) → MB.u8Space c = false → s.buffer.d.bytes.drop s.buffer.pcur = sp ++ c :: rest →
    s.buffer.pcur + sp.length < s.buffer.pend →
    ∃ last', utf8Skip2 n last s = .ok (some (some c, last'), movedTo s (s.buffer.pcur + sp.length) s.buffer.ptok []) := by
  intro sp
  induction sp with
  | nil =>
    intro n s last c rest hn hsp hc hd hlt
    obtain ⟨n, rfl⟩ : ∃ m, n = m + 1 := ⟨n - 1, by simp at hn; omega⟩
    refine ⟨last, Wp.exact ?_⟩
    unfold utf8Skip2
    refine Wp.bind (Wp.getB ?_)
    have hb : s.buffer.byteAt s.buffer.pcur = some c := get_of_drop hd
    rw [hb]
    simp only [MB.isSpace, hc, Bool.not_false, if_true]
    exact Wp.pure ⟨rfl, by simp [movedTo]⟩
  | cons x sp ih =>
    intro n s last c rest hn hsp hc hd hlt
    obtain ⟨n, rfl⟩ : ∃ m, n = m + 1 := ⟨n - 1, by simp at hn; omega⟩
    simp only [List.length_cons] at hlt hn
    have hb : s.buffer.byteAt s.buffer.pcur = some x := get_of_drop hd
    have hx : MB.isSpace (some x) = true := hsp x (by simp)
    obtain ⟨l', hl'⟩ := ih n (movedTo s (s.buffer.pcur + 1) s.buffer.ptok []) (some x) c rest (by omega) (fun y hy => hsp y (by simp [hy])) hc
      (drop_add_of (a := [x]) hd) (by simp only [movedTo]; omega)
    refine ⟨l', Wp.exact ?_⟩
    unfold utf8Skip2
    refine Wp.bind (Wp.getB ?_)
    rw [hb]
    simp only [hx, Bool.not_true, Bool.false_eq_true, if_false]
    refine Wp.bind (Wp.modB (Wp.bind (Wp.getB ?_)))
    rw [if_neg (by simp; omega)]
    refine ⟨_, _, ?_, rfl, rfl⟩
    have e : ({ s with buffer := { s.buffer with pcur := s.buffer.pcur + 1 } } : Lexer) = movedTo s (s.buffer.pcur + 1) s.buffer.ptok [] := by
      simp [movedTo]
    rw [e, hl', movedTo_movedTo]
    simp only [movedTo, List.length_cons, List.append_nil]
    rw [show s.buffer.pcur + 1 + sp.length = s.buffer.pcur + (sp.length + 1) by omega]

theorem skip1_run : ∀ (sp : Bytes) (n : Nat) (s : Lexer) (c : UInt8) (rest : Bytes), sp.length + 1 ≤ n →
    (∀ x ∈ sp, MB.u8Space x = true) → MB.u8Space c = false → s.buffer.d.bytes.drop s.buffer.pcur = sp ++ c :: rest →
    s.buffer.pcur + sp.length < s.buffer.pend →
    utf8Skip1 n s = .ok (some c, movedTo s (s.buffer.pcur + sp.length) s.buffer.ptok []) := by
  intro sp
  induction sp with
  | nil =>
    intro n s c rest hn hsp hc hd hlt
    obtain ⟨n, rfl⟩ : ∃ m, n = m + 1 := ⟨n - 1, by simp at hn; omega⟩
    refine Wp.exact ?_
    unfold utf8Skip1
    refine Wp.bind (Wp.getB ?_)
    have hb : s.buffer.byteAt s.buffer.pcur = some c := get_of_drop hd
    rw [hb]
    simp only [MB.isSpace, hc, Bool.not_false, if_true]
    exact Wp.pure ⟨rfl, by simp [movedTo]⟩
  | cons x sp ih =>
    intro n s c rest hn hsp hc hd hlt
    obtain ⟨n, rfl⟩ : ∃ m, n = m + 1 := ⟨n - 1, by simp at hn; omega⟩
    simp only [List.length_cons] at hlt hn
    have hb : s.buffer.byteAt s.buffer.pcur = some x := get_of_drop hd
    have hx : MB.isSpace (some x) = true := hsp x (by simp)
    have hl' := ih n (movedTo s (s.buffer.pcur + 1) s.buffer.ptok []) c rest (by omega) (fun y hy => hsp y (by simp [hy])) hc
      (drop_add_of (a := [x]) hd) (by simp only [movedTo]; omega)
    refine Wp.exact ?_
    unfold utf8Skip1
    refine Wp.bind (Wp.getB ?_)
    rw [hb]
    simp only [hx, Bool.not_true, Bool.false_eq_true, if_false]
    refine Wp.bind (Wp.modB (Wp.bind (Wp.getB ?_)))
    rw [if_neg (by simp; omega)]
    refine ⟨_, _, ?_, rfl, rfl⟩
    have e : ({ s with buffer := { s.buffer with pcur := s.buffer.pcur + 1 } } : Lexer) = movedTo s (s.buffer.pcur + 1) s.buffer.ptok [] := by
      simp [movedTo]
    rw [e, hl', movedTo_movedTo]
    simp only [movedTo, List.length_cons, List.append_nil]
    rw [show s.buffer.pcur + 1 + sp.length = s.buffer.pcur + (sp.length + 1) by omega]

theorem run_append {dig : UInt8 → Option Nat} {ds : Bytes} {c : UInt8} {rest : Bytes} {n : Nat}
    (hd : ∀ x ∈ ds, (dig x).isSome = true) (hc : dig c = none) (hn : ds.length ≤ n) :
    Digits.run dig ((ds ++ c :: rest).take n) = ds := by
  induction ds generalizing n with
  | nil => 
    unfold Digits.run
    cases n with
    | zero => rfl
    | succ n => simp [hc]
  | cons x ds ih =>
    cases n with
    | zero => simp at hn
    | succ n =>
      unfold Digits.run at *
      simp only [List.cons_append, List.take_succ_cons, List.takeWhile_cons, hd x (by simp), if_true]
      rw [ih (fun y hy => hd y (by simp [hy])) (by simp at hn; omega)]

theorem space_not_hex (c : UInt8) : MB.u8Space c = true → Digits.hex c = none := by
  revert c; exact u8_forall (by decide +kernel)

theorem hex_not_space (c : UInt8) : (Digits.hex c).isSome = true → MB.u8Space c = false ∧ c ≠ asc '}' := by
  revert c; exact u8_forall (by decide +kernel)

theorem utf8Loop_run (term : Option UInt8) (hterm : ∀ t, term = some t → Digits.hex t = none) :
    ∀ (ps : List UPart) (n : Nat) (s : Lexer) (last : MB) (err : Bool) (rest : Bytes), (∀ p ∈ ps, p.Ok) → UPart.Separated ps → ps.length + 1 ≤ n →
    s.buffer.d.bytes.drop s.buffer.pcur = UPart.text ps ++ asc '}' :: rest →
    s.buffer.pcur + (UPart.text ps).length < s.buffer.pend → s.buffer.pend ≤ s.buffer.d.bytes.length →
    (err = true → ps = []) → (term = none → ps.length ≤ 1) →
    ∃ k err', utf8Loop term false n (s.buffer.byteAt s.buffer.pcur) last none err s =
      .ok (some (some (asc '}'), none, err'), movedTo s (s.buffer.pcur + (UPart.text ps).length) k (UPart.utf8 ps)) := by
  intro ps
  induction ps with
  | nil =>
    intro n s last err rest hok hsep hn hd hlt hpl herr hone
    obtain ⟨n, rfl⟩ : ∃ m, n = m + 1 := ⟨n - 1, by omega⟩
    have hb : s.buffer.byteAt s.buffer.pcur = some (asc '}') := get_of_drop hd
    refine ⟨s.buffer.ptok, err, Wp.exact ?_⟩
    rw [hb]
    unfold utf8Loop
    rw [if_pos (by decide)]
    exact Wp.pure ⟨rfl, by simp [movedTo, UPart.text, UPart.utf8]⟩
  | cons p ps ih =>
    intro n s last err rest hok hsep hn hd hlt hpl herr hone
    obtain ⟨n, rfl⟩ : ∃ m, n = m + 1 := ⟨n - 1, by omega⟩
    have hp := hok p (by simp)
    have herr' : err = false := by cases err with | false => rfl | true => simp at herr
    subst herr'
    obtain ⟨d0, ds, hds⟩ : ∃ d0 ds, p.digits = d0 :: ds := by
      cases h : p.digits with
      | nil => have := hp.pos; simp [h] at this
      | cons a l => exact ⟨a, l, rfl⟩
    have htext : UPart.text (p :: ps) = p.digits ++ (p.space ++ UPart.text ps) := by simp [UPart.text]
    rw [htext] at hd hlt
    have hb : s.buffer.byteAt s.buffer.pcur = some d0 := get_of_drop (by rw [hd, hds]; rfl)
    have hd0 := hp.hex d0 (by simp [hds])
    have hnb : isC (some d0) '}' = false := by
      have := (hex_not_space d0 hd0).2
      simp only [isC, beq_eq_false_iff_ne, ne_eq, Option.some.injEq]; exact this
    have hnt : (some d0 == term) = false := by
      cases term with
      | none => rfl
      | some t =>
        simp only [beq_eq_false_iff_ne, ne_eq, Option.some.injEq]
        rintro rfl
        rw [hterm d0 rfl] at hd0; simp at hd0
    -- what follows the digits
    obtain ⟨c1, r1, hc1, hc1h⟩ : ∃ c1 r1, p.space ++ UPart.text ps ++ asc '}' :: rest = c1 :: r1 ∧ Digits.hex c1 = none := by
      cases hsp : p.space with
      | cons x xs => exact ⟨x, _, rfl, space_not_hex x (hp.space x (by simp [hsp]))⟩
      | nil =>
        have : ps = [] := by
          cases ps with
          | nil => rfl
          | cons q qs => exact absurd hsp hsep.1
        subst this
        exact ⟨_, _, rfl, by decide⟩
    simp only [List.length_append] at hlt
    have hdig : uDigits s.buffer true = p.digits := by
      unfold uDigits
      rw [hd, List.append_assoc, hc1]
      exact run_append hp.hex hc1h (by simp; omega)
    have hdrop1 : s.buffer.d.bytes.drop (s.buffer.pcur + p.digits.length) = p.space ++ (UPart.text ps ++ asc '}' :: rest) := by
      apply drop_add_of
      rw [hd]; simp
    have hstep := C26_scalar s true (by omega) (by rw [hdig]; exact ⟨hp.pos, hp.len⟩) (by rw [hdig]; exact hp.scalar)
    rw [hdig] at hstep
    -- what follows the white space
    obtain ⟨c2, r2, hc2, hc2s⟩ : ∃ c2 r2, UPart.text ps ++ asc '}' :: rest = c2 :: r2 ∧ MB.u8Space c2 = false := by
      cases ps with
      | nil => exact ⟨_, _, rfl, by decide⟩
      | cons q qs =>
        have hq := hok q (by simp)
        cases hqd : q.digits with
        | nil => have := hq.pos; simp [hqd] at this
        | cons a l =>
          refine ⟨a, l ++ (q.space ++ UPart.text qs ++ asc '}' :: rest), by simp [UPart.text, hqd], ?_⟩
          exact (hex_not_space a (hq.hex a (by simp [hqd]))).1
    let s1 := afterDigits s p.digits (Utf8.encode (Digits.value 16 Digits.hex p.digits))
    have hlenle := congrArg List.length hd
    simp only [List.length_drop, List.length_append, List.length_cons] at hlenle
    obtain ⟨l2, hskip⟩ := skip2_run p.space (64 * (s1.buffer.d.bytes.length + 1)) s1 last c2 r2
      (by simp only [s1, afterDigits, Buffer.d] at *; omega) hp.space hc2s (by rw [← hc2]; exact hdrop1) (by simp only [s1, afterDigits]; omega)
    let s2 := movedTo s1 (s1.buffer.pcur + p.space.length) s1.buffer.ptok []
    have hdrop2 : s2.buffer.d.bytes.drop s2.buffer.pcur = UPart.text ps ++ asc '}' :: rest := by
      exact drop_add_of (bs := s.buffer.d.bytes) hdrop1
    have hb2 : s2.buffer.byteAt s2.buffer.pcur = some c2 := by
      rw [hc2] at hdrop2; exact get_of_drop hdrop2
    obtain ⟨k, err', hih⟩ := ih n s2 l2 (term.isNone) rest (fun q hq => hok q (by simp [hq]))
      (by cases ps with
        | nil => trivial
        | cons q qs => exact hsep.2) (by simp at hn; omega) hdrop2 (by simp only [s2, s1, movedTo, afterDigits]; omega)
      hpl (by
        intro h
        have := hone (by cases term with | none => rfl | some t => simp at h)
        simp at this; exact this)
      (by intro h; have := hone h; simp at this; simp [this])
    rw [hb2] at hih
    refine ⟨k, err', Wp.exact ?_⟩
    rw [hb]
    unfold utf8Loop
    rw [if_neg (by simp [hnb]), if_neg (by simp [hnt])]
    simp only [Bool.false_eq_true, if_false]
    refine Wp.bind (Wp.pure (Wp.bind ⟨_, _, hstep, ?_⟩))
    simp only [Bool.not_true, Bool.false_eq_true, if_false]
    refine Wp.bind (Wp.fuel (Wp.bind ⟨_, _, hskip, ?_⟩))
    dsimp only
    have : (if (term.isNone && (none : Option Nat).isNone) = true then true else false) = term.isNone := by cases term <;> rfl
    rw [this]
    refine ⟨_, _, hih, rfl, ?_⟩
    simp only [s2, s1, movedTo, afterDigits, htext, UPart.utf8, List.flatMap_cons, List.append_assoc, List.append_nil, List.length_append]
    congr 2
    omega

theorem nextc_plain {s : Lexer} {c : UInt8} (h1 : s.buffer.nextline = 0) (h2 : s.buffer.eofp = false)
    (h3 : s.buffer.pcur < s.buffer.pend) (h4 : s.buffer.d.bytes[s.buffer.pcur]? = some c) (h5 : c ≠ 13) :
    nextc s = .ok (some c, movedTo s (s.buffer.pcur + 1) s.buffer.ptok []) := by
  have hb : s.buffer.nextc = .ok (some c, { s.buffer with pcur := s.buffer.pcur + 1 }) := by
    unfold Buffer.nextc
    rw [if_neg (by rw [h1, h2]; simp; omega)]
    unfold Buffer.readByte
    simp only [Input.byteAt]
    rw [h4]
    dsimp only
    rw [if_neg h5]
  unfold nextc
  rw [hb]
  simp [Bind.bind, Except.bind, Pure.pure, Except.pure, movedTo]

theorem text_length_ge (ps : List UPart) (h : ∀ p ∈ ps, p.Ok) : ps.length ≤ (UPart.text ps).length := by
  induction ps with
  | nil => simp
  | cons p ps ih =>
    have h1 := (h p (by simp)).pos
    have h2 := ih fun q hq => h q (by simp [hq])
    simp only [UPart.text, List.flatMap_cons, List.length_cons, List.length_append] at *
    omega

/-- C26: after `\u`, the text `{ <code points separated by white space> }` appends the UTF-8 encodings of all the code
points, in order, reports nothing and moves just behind the brace. `term` is the terminator of the literal (never a
digit); a character literal (`term = none`) takes one code point. -/
theorem C26_braces (s : Lexer) (term : Option UInt8) (sp : Bytes) (ps : List UPart) (rest : Bytes)
    (hterm : ∀ t, term = some t → Digits.hex t = none) (hone : term = none → ps.length ≤ 1)
    (hsp : ∀ c ∈ sp, MB.u8Space c = true) (hok : ∀ p ∈ ps, p.Ok) (hsep : UPart.Separated ps)
    (hnl : s.buffer.nextline = 0) (he : s.buffer.eofp = false) (hpl : s.buffer.pend ≤ s.buffer.d.bytes.length)
    (hd : s.buffer.d.bytes.drop s.buffer.pcur = asc '{' :: (sp ++ (UPart.text ps ++ asc '}' :: rest)))
    (hlt : s.buffer.pcur + 1 + sp.length + (UPart.text ps).length < s.buffer.pend) :
    ∃ k, tokaddUtf8 term false s =
      .ok ((), movedTo s (s.buffer.pcur + 1 + sp.length + (UPart.text ps).length + 1) k (UPart.utf8 ps)) := by
  have hb0 : s.buffer.d.bytes[s.buffer.pcur]? = some (asc '{') := get_of_drop hd
  have hn0 := nextc_plain hnl he (by omega) hb0 (by decide)
  let s1 := movedTo s (s.buffer.pcur + 1) s.buffer.ptok []
  have hdrop1 : s1.buffer.d.bytes.drop s1.buffer.pcur = sp ++ (UPart.text ps ++ asc '}' :: rest) :=
    drop_add_of (bs := s.buffer.d.bytes) (a := [asc '{']) hd
  obtain ⟨c2, r2, hc2, hc2s⟩ : ∃ c2 r2, UPart.text ps ++ asc '}' :: rest = c2 :: r2 ∧ MB.u8Space c2 = false := by
    cases ps with
    | nil => exact ⟨_, _, rfl, by decide⟩
    | cons q qs =>
      have hq := hok q (by simp)
      cases hqd : q.digits with
      | nil => have := hq.pos; simp [hqd] at this
      | cons a l =>
        refine ⟨a, l ++ (q.space ++ UPart.text qs ++ asc '}' :: rest), by simp [UPart.text, hqd], ?_⟩
        exact (hex_not_space a (hq.hex a (by simp [hqd]))).1
  have hskip := skip1_run sp (64 * (s1.buffer.d.bytes.length + 1)) s1 c2 r2
    (by simp only [s1, movedTo, Buffer.d] at *; omega) hsp hc2s (by rw [← hc2]; exact hdrop1) (by simp only [s1, movedTo]; omega)
  let s2 := movedTo s1 (s1.buffer.pcur + sp.length) s1.buffer.ptok []
  have hdrop2 : s2.buffer.d.bytes.drop s2.buffer.pcur = UPart.text ps ++ asc '}' :: rest :=
    drop_add_of (bs := s.buffer.d.bytes) hdrop1
  have hb2 : s2.buffer.byteAt s2.buffer.pcur = some c2 := by
    rw [hc2] at hdrop2; exact get_of_drop hdrop2
  have hps := text_length_ge ps hok
  obtain ⟨k, err', hloop⟩ := utf8Loop_run term hterm ps (64 * (s2.buffer.d.bytes.length + 1)) s2 (some (asc '{')) false rest hok hsep
    (by simp only [s2, s1, movedTo, Buffer.d] at *; omega) hdrop2 (by simp only [s2, s1, movedTo]; omega) hpl (by simp) hone
  rw [hb2] at hloop
  let s3 := movedTo s2 (s2.buffer.pcur + (UPart.text ps).length) k (UPart.utf8 ps)
  have hb3 : s3.buffer.d.bytes[s3.buffer.pcur]? = some (asc '}') :=
    get_of_drop (drop_add_of (bs := s.buffer.d.bytes) hdrop2)
  have hn3 := nextc_plain (s := s3) hnl he (by simp only [s3, s2, s1, movedTo]; omega) hb3 (by decide)
  have hg : s.buffer.peek (asc '{') = .ok true := by
    unfold Buffer.peek Buffer.peekN Buffer.isEolN
    rw [if_neg (by simp; omega)]
    simp only [Input.uncheckedByteAt, Nat.add_zero]
    rw [hb0]; rfl
  refine ⟨k, Wp.exact ?_⟩
  unfold tokaddUtf8
  simp only [Bool.false_eq_true, if_false]
  refine Wp.bind (Wp.liftB true hg ?_)
  rw [if_pos rfl]
  refine Wp.bind ⟨_, _, hn0, Wp.bind (Wp.getB ?_)⟩
  rw [if_neg (by simp [movedTo]; omega)]
  refine Wp.bind (Wp.fuel (Wp.bind ⟨_, _, hskip, Wp.bind (Wp.fuel (Wp.bind ⟨_, _, hloop, ?_⟩))⟩))
  dsimp only
  rw [if_neg (by decide)]
  refine Wp.bind ⟨_, _, hn3, Wp.pure ⟨trivial, ?_⟩⟩
  simp [s3, s2, s1, movedTo]

/-- A lexer at the start of `src`. -/
def lexerOn (src : String) : Option Lexer := (Buffer.new "x" (ascs src) none).toOption.map fun b => { buffer := b }

/-- The literal text and the diagnostics after reading an escape. -/
def escapeOutcome (src : String) (x : LexM α) : Option (Bytes × List LexMsg) :=
  (lexerOn src).bind fun s => (x s).toOption.map fun r => (r.2.tokenbuf, r.2.diagnostics.map (·.message))

example : escapeOutcome "20AC\n" (tokaddCodepoint false false) = some ([0xE2, 0x82, 0xAC], []) := by decide +kernel
example : escapeOutcome "D800\n" (tokaddCodepoint false false) = some ([], [.InvalidUnicodeCodepoint]) := by decide +kernel
example : escapeOutcome "110000}\n" (tokaddCodepoint false true) = some ([], [.TooLargeUnicodeCodepoint]) := by decide +kernel
example : escapeOutcome "{ 41 20AC}\n" (tokaddUtf8 (some 34) false) = some ([0x41, 0xE2, 0x82, 0xAC], []) := by decide +kernel
example : UPart.text [⟨ascs "41", ascs " "⟩, ⟨ascs "20AC", []⟩] = ascs "41 20AC" ∧
    (∀ p ∈ [UPart.mk (ascs "41") (ascs " "), ⟨ascs "20AC", []⟩], p.Ok) := by
  refine ⟨by decide, ?_⟩
  intro p hp
  simp only [List.mem_cons, List.not_mem_nil, or_false] at hp
  rcases hp with rfl | rfl <;> exact ⟨by decide, by decide, by decide, by decide, by decide⟩
example : (lexerOn "20AC\n").isSome = true ∧ ∀ s, lexerOn "20AC\n" = some s →
    s.buffer.pcur ≤ s.buffer.pend ∧ uDigits s.buffer false = ascs "20AC" := by
  constructor
  · decide +kernel
  · intro s h
    have : ((lexerOn "20AC\n").map fun s => (decide (s.buffer.pcur ≤ s.buffer.pend), uDigits s.buffer false)) = some (true, ascs "20AC") := by
      decide +kernel
    rw [h] at this
    simpa using this

end Verif.Lexer
