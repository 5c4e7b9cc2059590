import Verif.Model.ReservedWords
import Mathlib.Data.List.Nodup
/-! Lemmas about the reserved-word table and about binary search in a sorted list. -/
namespace Verif

theorem cmpBytes_self (a : Bytes) : cmpBytes a a = .eq := by
  induction a with
  | nil => rfl
  | cons x xs ih => simp [cmpBytes, ih, UInt8.lt_irrefl]

theorem cmpBytes_eq {a b : Bytes} (h : cmpBytes a b = .eq) : a = b := by
  induction a generalizing b with
  | nil => cases b <;> simp_all [cmpBytes]
  | cons x xs ih =>
    cases b with
    | nil => simp [cmpBytes] at h
    | cons y ys =>
      simp only [cmpBytes] at h
      split at h
      · simp at h
      · split at h
        · simp at h
        · have := ih h
          have hxy : x = y := by
            apply UInt8.le_antisymm
            · exact UInt8.not_lt.mp (by assumption)
            · exact UInt8.not_lt.mp (by assumption)
          rw [this, hxy]

theorem cmpBytes_lt_gt {a b : Bytes} (h : cmpBytes a b = .lt) : cmpBytes b a = .gt := by
  induction a generalizing b with
  | nil => cases b <;> simp_all [cmpBytes]
  | cons x xs ih =>
    cases b with
    | nil => simp [cmpBytes] at h
    | cons y ys =>
      simp only [cmpBytes] at h ⊢
      by_cases h1 : x < y
      · have : ¬ y < x := fun h2 => UInt8.lt_irrefl _ (UInt8.lt_trans h1 h2)
        simp [h1, this]
      · by_cases h2 : y < x
        · simp [h1, h2] at h
        · simp only [h1, h2, if_false] at h ⊢
          exact ih h

/-- Strictly increasing names (pairwise). -/
def SortedNames (v : List ReservedWord) : Prop := v.Pairwise fun x y => cmpBytes x.name y.name = .lt

instance (v : List ReservedWord) : Decidable (SortedNames v) := by unfold SortedNames; infer_instance

theorem binSearchLoop_ok (tok : Bytes) (v : List ReservedWord) (fuel : Nat) :
    ∀ size base, size ≤ fuel → 0 < size → base + size ≤ v.length →
    ∃ r, binSearchLoop (fun e => cmpBytes e.name tok) v fuel size base = .ok r ∧ base ≤ r ∧ r < base + size ∧
      (SortedNames v → ∀ i w, v[i]? = some w → w.name = tok → base ≤ i → i < base + size → r = i) := by
  induction fuel with
  | zero => intro size base h0 h1; omega
  | succ n ih =>
    intro size base hf hs hb
    unfold binSearchLoop
    split
    · have hm : base + size / 2 < v.length := by omega
      simp only [List.getElem?_eq_getElem hm]
      obtain ⟨r, hr, h1, h2, h3⟩ := ih (size - size / 2)
        (if cmpBytes (v[base + size / 2]).name tok == .gt then base else base + size / 2)
        (by omega) (by omega) (by split <;> omega)
      refine ⟨r, hr, by split at h1 <;> omega, by split at h2 <;> omega, ?_⟩
      intro hsort i w hi hw hlo hhi
      obtain ⟨hil, hi'⟩ := List.getElem?_eq_some_iff.mp hi
      apply h3 hsort i w hi hw
      · split
        · exact hlo
        · rename_i hgt
          by_contra hlt
          have hlt : i < base + size / 2 := by omega
          have := List.pairwise_iff_getElem.mp hsort i (base + size / 2) hil hm hlt
          rw [hi', hw] at this
          have := cmpBytes_lt_gt this
          simp [this] at hgt
      · split
        · rename_i hgt
          by_contra hge
          have hge : base + size / 2 ≤ i := by omega
          rcases Nat.lt_or_eq_of_le hge with hlt | heq
          · have := List.pairwise_iff_getElem.mp hsort (base + size / 2) i hm hil hlt
            rw [hi', hw] at this
            simp [this] at hgt
          · subst heq
            rw [hi', hw, cmpBytes_self] at hgt
            simp at hgt
        · omega
    · exact ⟨base, rfl, by omega, by omega, fun _ i w _ _ h1 h2 => by omega⟩

/-- Binary search over a list with strictly increasing names finds exactly the word with the given name. -/
theorem binarySearch_spec (tok : Bytes) (v : List ReservedWord) (hv : SortedNames v) :
    (∃ i w, binarySearchBy (fun e => cmpBytes e.name tok) v = .ok (some i) ∧ v[i]? = some w ∧ w.name = tok) ∨
    (binarySearchBy (fun e => cmpBytes e.name tok) v = .ok none ∧ ∀ w ∈ v, w.name ≠ tok) := by
  unfold binarySearchBy
  split
  · right
    refine ⟨rfl, ?_⟩
    have : v = [] := List.length_eq_zero_iff.mp (by assumption)
    simp [this]
  · obtain ⟨r, hr, h1, h2, h3⟩ := binSearchLoop_ok tok v v.length v.length 0 (by omega) (by omega) (by omega)
    have hr2 : r < v.length := by omega
    simp only [hr, bind, Except.bind, List.getElem?_eq_getElem hr2, pure, Except.pure]
    by_cases he : cmpBytes (v[r]).name tok = .eq
    · left
      exact ⟨r, v[r], by simp [he], List.getElem?_eq_getElem hr2, cmpBytes_eq he⟩
    · right
      refine ⟨by simp [he], ?_⟩
      intro w hw hn
      obtain ⟨i, hi, rfl⟩ := List.getElem_of_mem hw
      have := h3 hv i v[i] (List.getElem?_eq_getElem hi) hn (by omega) (by omega)
      subst this
      rw [hn, cmpBytes_self] at he
      exact he rfl

/-- All facts about the concrete buckets that are needed (a finite table). -/
theorem reservedBuckets_facts :
    (∀ b ∈ reservedBuckets, SortedNames b) ∧
    (∀ b ∈ reservedBuckets, ∀ w ∈ b, w ∈ reservedWordsList) ∧
    (∀ w ∈ reservedWordsList, ∃ b, reservedBuckets[w.name.length]? = some b ∧ w ∈ b) ∧
    (reservedWordsList.map (·.name)).Nodup := by
  refine ⟨by decide +kernel, by decide +kernel, ?_, by decide +kernel⟩
  have : ∀ w ∈ reservedWordsList, w ∈ (reservedBuckets[w.name.length]?).getD [] ∧
      w.name.length < reservedBuckets.length := by decide +kernel
  intro w hw
  obtain ⟨h1, h2⟩ := this w hw
  refine ⟨reservedBuckets[w.name.length], List.getElem?_eq_getElem h2, ?_⟩
  simpa [List.getElem?_eq_getElem h2] using h1

end Verif
