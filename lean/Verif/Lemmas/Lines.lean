import Verif.Lemmas.Source
/-! Facts about the line table in a form that suits linear arithmetic: total functions for the start and the end of a line. -/
namespace Verif
open Spec

/-- Start of line `i` (0 outside the table). -/
def DecodedInput.lStart (d : DecodedInput) (i : Nat) : Nat := (d.lines[i]?.map (·.start)).getD 0
/-- End of line `i` (0 outside the table). -/
def DecodedInput.lStop (d : DecodedInput) (i : Nat) : Nat := (d.lines[i]?.map (·.stop)).getD 0

/-- The table belongs to the bytes. -/
def DecodedInput.Tabled (d : DecodedInput) : Prop := d.lines = linesFrom 0 0 d.bytes

theorem updateBytes_tabled (d : DecodedInput) (bs : Bytes) : (d.updateBytes bs).Tabled := updateBytes_lines d bs

namespace DecodedInput.Tabled
variable {d : DecodedInput}

theorem get (_h : d.Tabled) {i : Nat} (hi : i < d.lines.length) :
    ∃ l, d.lines[i]? = some l ∧ d.lStart i = l.start ∧ d.lStop i = l.stop := by
  refine ⟨d.lines[i], by simp [hi], by simp [lStart, hi], by simp [lStop, hi]⟩

theorem ok (h : d.Tabled) {i : Nat} {l : SourceLine} (hl : d.lines[i]? = some l) :
    LineOk d.bytes (i + 1 == d.lines.length) l := by
  rw [h] at hl ⊢
  exact linesFrom_ok0 d.bytes i l hl

theorem pos (h : d.Tabled) : 0 < d.lines.length := by
  have := linesFrom_ne_nil d.bytes 0 0
  rw [h]; exact List.length_pos_iff.2 this

theorem start_le (h : d.Tabled) {i : Nat} (hi : i < d.lines.length) : d.lStart i ≤ d.lStop i := by
  obtain ⟨l, hl, h1, h2⟩ := h.get hi
  rw [h1, h2]; exact (h.ok hl).le

theorem stop_le (h : d.Tabled) {i : Nat} (hi : i < d.lines.length) : d.lStop i ≤ d.bytes.length := by
  obtain ⟨l, hl, h1, h2⟩ := h.get hi
  rw [h2]; exact (h.ok hl).stop_le

theorem next (h : d.Tabled) {i : Nat} (hi : i + 1 < d.lines.length) : d.lStart (i + 1) = d.lStop i := by
  obtain ⟨l, hl, h1, h2⟩ := h.get (i := i) (by omega)
  obtain ⟨l', hl', h1', h2'⟩ := h.get hi
  rw [h1', h2]
  rw [h] at hl hl'
  exact (linesFrom_consec d.bytes 0 0 i l l' hl hl').symm

theorem nonempty (h : d.Tabled) {i : Nat} (hi : i + 1 < d.lines.length) : d.lStart i < d.lStop i := by
  obtain ⟨l, hl, h1, h2⟩ := h.get (i := i) (by omega)
  have := (h.ok hl).body
  rw [if_neg (by simp; omega)] at this
  rw [h1, h2]; exact this.1

theorem last_lf (h : d.Tabled) {i : Nat} (hi : i + 1 < d.lines.length) : d.bytes[d.lStop i - 1]? = some 10 := by
  obtain ⟨l, hl, h1, h2⟩ := h.get (i := i) (by omega)
  have := (h.ok hl).body
  rw [if_neg (by simp; omega)] at this
  rw [h2]; exact this.2.1

theorem slice_not_mem {bs : Bytes} {a b j : Nat} (h : LF ∉ slice bs a b) (h1 : a ≤ j) (h2 : j < b) :
    bs[j]? ≠ some 10 := by
  intro e
  apply h
  have hj : j < bs.length := (List.getElem?_eq_some_iff.1 e).1
  have : (slice bs a b)[j - a]? = some 10 := by
    simp only [slice, List.getElem?_take, List.getElem?_drop]
    rw [if_pos (by omega), show a + (j - a) = j by omega, e]
  exact List.mem_of_getElem? this

theorem inner (h : d.Tabled) {i : Nat} (hi : i < d.lines.length) {j : Nat} (h1 : d.lStart i ≤ j)
    (h2 : j + 1 < d.lStop i) : d.bytes[j]? ≠ some 10 := by
  obtain ⟨l, hl, e1, e2⟩ := h.get hi
  have := (h.ok hl).body
  split at this
  · exact slice_not_mem this (by omega) (by omega)
  · exact slice_not_mem this.2.2 (by omega) (by omega)

theorem last_no_lf (h : d.Tabled) {i : Nat} (hi : i + 1 = d.lines.length) {j : Nat} (h1 : d.lStart i ≤ j)
    (h2 : j < d.lStop i) : d.bytes[j]? ≠ some 10 := by
  obtain ⟨l, hl, e1, e2⟩ := h.get (i := i) (by omega)
  have := (h.ok hl).body
  rw [if_pos (by simp [hi])] at this
  exact slice_not_mem this (by omega) (by omega)

theorem last_stop (h : d.Tabled) : d.lStop (d.lines.length - 1) = d.bytes.length := by
  obtain ⟨l, h1, h2, h3, h4⟩ := linesFrom_last d.bytes 0 0 (Nat.le_refl _)
  rw [List.getLast?_eq_getElem?, ← h] at h1
  simp only [lStop, h1]; simpa using h3

theorem first (h : d.Tabled) : d.lStart 0 = 0 := by
  obtain ⟨l, ls, h1, h2, _⟩ := linesFrom_head d.bytes 0 0
  have h' : d.lines = _ := h
  simp [lStart, h', h1, h2]

theorem stop_mono (h : d.Tabled) {i j : Nat} (hij : i ≤ j) (hj : j < d.lines.length) : d.lStop i ≤ d.lStop j := by
  induction j with
  | zero => simp [show i = 0 by omega]
  | succ j ih =>
    by_cases e : i = j + 1
    · subst e; exact Nat.le_refl _
    · have := ih (by omega) (by omega)
      have := h.next hj
      have := h.start_le hj
      omega

theorem stop_le_start (h : d.Tabled) {i j : Nat} (hij : i < j) (hj : j < d.lines.length) : d.lStop i ≤ d.lStart j := by
  obtain ⟨k, rfl⟩ : ∃ k, j = k + 1 := ⟨j - 1, by omega⟩
  rw [h.next hj]
  exact h.stop_mono (by omega) (by omega)

theorem length_le (bs : Bytes) : ∀ s idx, (linesFrom s idx bs).length ≤ bs.length + 1 := by
  induction bs with
  | nil => intro s idx; simp [linesFrom]
  | cons c cs ih =>
    intro s idx; simp only [linesFrom]; split
    · have := ih (idx + 1) (idx + 1); simp; omega
    · have := ih s (idx + 1); simp; omega

theorem count (h : d.Tabled) : d.lines.length ≤ d.bytes.length + 1 := by
  rw [h]; exact length_le d.bytes 0 0

theorem lineAt (h : d.Tabled) {i : Nat} (hi : i < d.lines.length) :
    ∃ l, d.lineAt i = .ok l ∧ l.start = d.lStart i ∧ l.stop = d.lStop i := by
  obtain ⟨l, hl, h1, h2⟩ := h.get hi
  exact ⟨l, by simp [DecodedInput.lineAt, hl], h1.symm, h2.symm⟩

end DecodedInput.Tabled
end Verif
