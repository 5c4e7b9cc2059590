import Verif.Model.Report
import Verif.Spec.Source
/-! Helper lemmas about the line table. -/
namespace Verif
open Spec

/-- The lines of `bs`, when the current line started at `s` and `idx` is the current offset. -/
def linesFrom (s idx : Nat) : Bytes → List SourceLine
  | [] => [⟨s, idx, true⟩]
  | c :: cs =>
    if c = 10 then ⟨s, idx + 1, false⟩ :: linesFrom (idx + 1) (idx + 1) cs
    else linesFrom s (idx + 1) cs

theorem updateLoop_eq (bs : Bytes) : ∀ (idx : Nat) (line : SourceLine) (lines : List SourceLine),
    let r := DecodedInput.updateLoop idx line lines bs
    r.2 ++ [{ r.1 with stop := idx + bs.length, endsWithEof := true }]
      = lines ++ linesFrom line.start idx bs := by
  induction bs with
  | nil => intro idx line lines; simp [DecodedInput.updateLoop, linesFrom]
  | cons c cs ih =>
    intro idx line lines
    simp only [DecodedInput.updateLoop, linesFrom]
    split
    · have := ih (idx + 1) ⟨idx + 1, 0, true⟩
        (lines ++ [⟨line.start, idx + 1, false⟩])
      simp only [List.length_cons] at *
      rw [show idx + (cs.length + 1) = idx + 1 + cs.length by omega]
      simpa using this
    · have := ih (idx + 1) { line with stop := idx + 1 } lines
      simp only [List.length_cons] at *
      rw [show idx + (cs.length + 1) = idx + 1 + cs.length by omega]
      simpa using this

theorem updateBytes_lines (d : DecodedInput) (bs : Bytes) :
    (d.updateBytes bs).lines = linesFrom 0 0 bs := by
  have := updateLoop_eq bs 0 ⟨0, 0, true⟩ []
  simpa [DecodedInput.updateBytes] using this

@[simp] theorem updateBytes_bytes (d : DecodedInput) (bs : Bytes) : (d.updateBytes bs).bytes = bs := rfl
@[simp] theorem updateBytes_len (d : DecodedInput) (bs : Bytes) : (d.updateBytes bs).len = bs.length := rfl
@[simp] theorem updateBytes_name (d : DecodedInput) (bs : Bytes) : (d.updateBytes bs).name = d.name := rfl

theorem linesFrom_ne_nil (bs : Bytes) : ∀ s idx, linesFrom s idx bs ≠ [] := by
  induction bs with
  | nil => intro s idx; simp [linesFrom]
  | cons c cs ih => intro s idx; simp only [linesFrom]; split <;> simp [ih]

theorem linesFrom_head (bs : Bytes) : ∀ s idx, ∃ l ls, linesFrom s idx bs = l :: ls ∧
    l.start = s ∧ idx ≤ l.stop := by
  induction bs with
  | nil => intro s idx; exact ⟨_, _, rfl, rfl, Nat.le_refl _⟩
  | cons c cs ih =>
    intro s idx; simp only [linesFrom]; split
    · exact ⟨_, _, rfl, rfl, Nat.le_succ _⟩
    · obtain ⟨l, ls, h1, h2, h3⟩ := ih s (idx + 1)
      exact ⟨l, ls, h1, h2, by omega⟩

/-- One step of the (line, column) automaton. -/
def lcStep : Nat × Nat → UInt8 → Nat × Nat
  | (n, c), b => if b = 10 then (n + 1, 0) else (n, c + 1)

theorem lineColLoop_some (bs : Bytes) : ∀ (s idx n k : Nat), s ≤ idx → k < bs.length →
    DecodedInput.lineColLoop n (idx - s + k) (linesFrom s idx bs)
      = .ok (some ((bs.take k).foldl lcStep (n, idx - s))) := by
  induction bs with
  | nil => intro s idx n k _ hk; simp at hk
  | cons c cs ih =>
    intro s idx n k hs hk
    simp only [linesFrom]
    split
    · rename_i hc
      have h1 : s ≤ idx + 1 := by omega
      cases k with
      | zero =>
        simp [DecodedInput.lineColLoop, SourceLine.len, h1, bind, Except.bind, pure, Except.pure]
        omega
      | succ k =>
        have h2 : ¬ (idx + 1 - s > idx - s + (k + 1)) := by omega
        have h3 : idx - s + (k + 1) - (idx + 1 - s) = k := by omega
        have h4 : idx + 1 - s ≤ idx - s + (k + 1) := by omega
        have := ih (idx + 1) (idx + 1) (n + 1) k (Nat.le_refl _) (by simpa using hk)
        simp only [Nat.sub_self, Nat.zero_add] at this
        simp [DecodedInput.lineColLoop, SourceLine.len, h1, h2, h3, h4, bind, Except.bind, hc, lcStep, this]
    · rename_i hc
      cases k with
      | zero =>
        obtain ⟨l, ls, e, e1, e2⟩ := linesFrom_head cs s (idx + 1)
        have h1 : l.start ≤ l.stop := by omega
        have h2 : idx - s < l.stop - l.start := by omega
        simp [e, DecodedInput.lineColLoop, SourceLine.len, h1, h2, bind, Except.bind, pure, Except.pure]
      | succ k =>
        have := ih s (idx + 1) n k (by omega) (by simpa using hk)
        rw [show idx + 1 - s + k = idx - s + (k + 1) by omega,
          show idx + 1 - s = idx - s + 1 by omega] at this
        simp [this, lcStep, hc]

theorem lineColLoop_none (bs : Bytes) : ∀ (s idx n pos : Nat), s ≤ idx → idx - s + bs.length ≤ pos →
    DecodedInput.lineColLoop n pos (linesFrom s idx bs) = .ok none := by
  induction bs with
  | nil =>
    intro s idx n pos hs hp
    simp at hp
    have : ¬ (idx - s > pos) := by omega
    simp [linesFrom, DecodedInput.lineColLoop, SourceLine.len, hs, this, bind, Except.bind,
      show idx - s ≤ pos by omega]
  | cons c cs ih =>
    intro s idx n pos hs hp
    simp only [List.length_cons] at hp
    simp only [linesFrom]
    split
    · have h2 : ¬ (idx + 1 - s > pos) := by omega
      have := ih (idx + 1) (idx + 1) (n + 1) (pos - (idx + 1 - s)) (Nat.le_refl _) (by omega)
      simp [DecodedInput.lineColLoop, SourceLine.len, show s ≤ idx + 1 by omega, h2, bind, Except.bind,
        show idx + 1 - s ≤ pos by omega, this]
    · exact ih s (idx + 1) n pos (by omega) (by omega)

theorem takeWhile_self {p : Bytes} (h : LF ∉ p) :
    p.takeWhile (fun c => c != LF) = p := by
  induction p with
  | nil => rfl
  | cons a p ih =>
    simp only [List.mem_cons, not_or] at h
    have : (a != LF) = true := by simpa using fun e : a = LF => h.1 e.symm
    simp only [List.takeWhile_cons, this, if_true, ih h.2]

theorem takeWhile_lt {p : Bytes} (h : LF ∈ p) :
    (p.takeWhile (fun c => c != LF)).length ≠ p.length := by
  intro h2
  have h3 := (List.takeWhile_prefix (fun c => c != LF) (l := p)).eq_of_length h2
  have : LF ∈ p.takeWhile (fun c => c != LF) := by rw [h3]; exact h
  have := List.all_takeWhile (p := fun c => c != LF) (l := p)
  rw [h3, List.all_eq_true] at this
  simpa using this LF h

theorem lcStep_foldl (p : Bytes) : ∀ n c, p.foldl lcStep (n, c)
    = (n + p.count LF, if LF ∈ p then (p.reverse.takeWhile (fun c => c != LF)).length else c + p.length) := by
  induction p with
  | nil => intro n c; simp
  | cons b p ih =>
    intro n c
    simp only [List.foldl_cons, lcStep]
    by_cases h : LF ∈ p
    · have h1 := takeWhile_lt (p := p.reverse) (by simpa using h)
      simp only [List.length_reverse] at h1
      split
      · rename_i hb; subst hb
        rw [ih]
        simp [h, List.takeWhile_append, h1, Nat.add_assoc, Nat.add_comm 1]
      · rename_i hb
        rw [ih]
        simp [h, hb, List.takeWhile_append, h1]
    · have h4 := takeWhile_self (p := p.reverse) (by simpa using h)
      split
      · rename_i hb; subst hb
        rw [ih]
        simp [h, List.takeWhile_append, h4, List.count_eq_zero_of_not_mem h]
      · rename_i hb
        rw [ih]
        have : ¬ ((10:UInt8) = b) := fun e => hb e.symm
        simp [h, hb, this]; omega

theorem colOf_zero_foldl (p : Bytes) : p.foldl lcStep (0, 0)
    = (p.count LF, (p.reverse.takeWhile (fun c => c != LF)).length) := by
  rw [lcStep_foldl]
  by_cases h : LF ∈ p
  · simp [h]
  · have h4 := takeWhile_self (p := p.reverse) (by simpa using h)
    simp [h, h4]

theorem linesFrom_last (bs : Bytes) : ∀ s idx, s ≤ idx → ∃ l,
    (linesFrom s idx bs).getLast? = some l ∧ l.start ≤ l.stop ∧ l.stop = idx + bs.length ∧
    l.endsWithEof = true ∧
    ((linesFrom s idx bs).length - 1, l.stop - l.start) = bs.foldl lcStep (0, idx - s) ∧
    ∀ n, (n + ((linesFrom s idx bs).length - 1), l.stop - l.start) = bs.foldl lcStep (n, idx - s) := by
  induction bs with
  | nil => intro s idx h; exact ⟨_, rfl, h, rfl, rfl, rfl, fun n => by simp [linesFrom]⟩
  | cons c cs ih =>
    intro s idx h
    simp only [linesFrom, List.foldl_cons, lcStep]
    split
    · obtain ⟨l, h1, h2, h3, h4, h5, h6⟩ := ih (idx + 1) (idx + 1) (Nat.le_refl _)
      have hne := linesFrom_ne_nil cs (idx + 1) (idx + 1)
      have hpos : 0 < (linesFrom (idx + 1) (idx + 1) cs).length := List.length_pos_iff.mpr hne
      refine ⟨l, ?_, h2, ?_, h4, ?_, ?_⟩
      · rw [List.getLast?_cons_of_ne_nil hne]; exact h1
      · simp; omega
      · have := h6 1; simp only [Nat.sub_self] at this; simp only [List.length_cons, Nat.zero_add]
        rw [← this]; congr 1; omega
      · intro n
        have := h6 (n + 1); simp only [Nat.sub_self] at this; simp only [List.length_cons]
        rw [← this]; congr 1; omega
    · obtain ⟨l, h1, h2, h3, h4, h5, h6⟩ := ih s (idx + 1) (by omega)
      rw [show idx + 1 - s = idx - s + 1 by omega] at h5 h6
      exact ⟨l, h1, h2, by simp; omega, h4, h5, h6⟩

theorem lineColForPos_eq (d : DecodedInput) (bs : Bytes) (pos : Nat) :
    (d.updateBytes bs).lineColForPos pos
      = .ok (if pos ≤ bs.length then some (lineOf bs pos, colOf bs pos) else none) := by
  unfold DecodedInput.lineColForPos
  simp only [updateBytes_len, updateBytes_lines]
  split
  · rename_i h; subst h
    obtain ⟨l, h1, h2, h3, h4, h5, h6⟩ := linesFrom_last bs 0 0 (Nat.le_refl _)
    rw [colOf_zero_foldl] at h5
    have hne := linesFrom_ne_nil bs 0 0
    have hpos : 1 ≤ (linesFrom 0 0 bs).length := List.length_pos_iff.mpr hne
    simp only [h1, SourceLine.len]
    simp only [bind, Except.bind, pure, Except.pure, csub_of_le hpos, csub_of_le h2]
    simp [lineOf, colOf, h5]
  · by_cases h : pos ≤ bs.length
    · have := lineColLoop_some bs 0 0 0 pos (Nat.le_refl _) (by omega)
      simp only [Nat.sub_self, Nat.zero_add] at this
      rw [this, colOf_zero_foldl]
      simp [h, lineOf, colOf]
    · rw [lineColLoop_none bs 0 0 0 pos (Nat.le_refl _) (by omega)]
      simp [h]

/-- Description of the table entry at index `i`. -/
structure LineOk (bytes : Bytes) (isLast : Bool) (l : SourceLine) : Prop where
  le : l.start ≤ l.stop
  stop_le : l.stop ≤ bytes.length
  eof : l.endsWithEof = isLast
  body : if isLast then LF ∉ slice bytes l.start l.stop
    else l.start < l.stop ∧ bytes[l.stop - 1]? = some LF ∧ LF ∉ slice bytes l.start (l.stop - 1)
  before : l.start = 0 ∨ bytes[l.start - 1]? = some LF

theorem slice_append_len (p q : Bytes) : slice (p ++ q) 0 p.length = p := by simp [slice]

/-- `linesFrom` on the suffix `bs` of `pre ++ cur ++ bs` where `cur` is the current (LF free) partial line. -/
theorem linesFrom_ok (bs : Bytes) : ∀ (pre cur : Bytes),
    (pre = [] ∨ pre[pre.length - 1]? = some LF) → LF ∉ cur →
    ∀ i l, (linesFrom pre.length (pre.length + cur.length) bs)[i]? = some l →
      LineOk (pre ++ cur ++ bs) (i + 1 == (linesFrom pre.length (pre.length + cur.length) bs).length) l := by
  induction bs with
  | nil =>
    intro pre cur hp hc i l hl
    simp only [linesFrom] at hl ⊢
    rcases i with _ | i
    · simp at hl; subst hl
      refine ⟨by simp, by simp, by simp, ?_, ?_⟩
      · simp [slice, hc]
      · rcases hp with rfl | hp
        · simp
        · right
          have : pre.length - 1 < pre.length := by
            rcases Nat.eq_zero_or_pos pre.length with h | h
            · rw [h] at hp; simp [List.length_eq_zero_iff.mp h] at hp
            · omega
          simp only [List.append_assoc]
          rw [List.getElem?_append_left this]; exact hp
    · simp at hl
  | cons c cs ih =>
    intro pre cur hp hc i l hl
    simp only [linesFrom] at hl ⊢
    by_cases h10 : c = 10
    · subst h10
      simp only [if_true] at hl ⊢
      have hrec := ih (pre ++ cur ++ [10]) [] (Or.inr (by simp)) (by simp)
      simp only [List.length_append, List.length_cons, List.length_nil, Nat.add_zero, Nat.zero_add,
        List.append_nil] at hrec
      have hass : pre ++ cur ++ [(10:UInt8)] ++ cs = pre ++ cur ++ 10 :: cs := by simp
      rw [hass] at hrec
      rcases i with _ | i
      · simp at hl; subst hl
        have hne := linesFrom_ne_nil cs (pre.length + cur.length + 1) (pre.length + cur.length + 1)
        refine ⟨by simp; omega, by simp; omega, ?_, ?_, ?_⟩
        · simp [hne]
        · simp only [List.length_cons]
          have : (0 + 1 == (linesFrom (pre.length + cur.length + 1) (pre.length + cur.length + 1) cs).length + 1) = false := by
            simp [hne]
          simp only [this]
          refine ⟨by omega, ?_, ?_⟩
          · simp
          · simp [slice, hc]
        · rcases hp with rfl | hp
          · simp
          · right
            have : pre.length - 1 < pre.length := by
              rcases Nat.eq_zero_or_pos pre.length with h | h
              · rw [h] at hp; simp [List.length_eq_zero_iff.mp h] at hp
              · omega
            simp only [List.append_assoc]
            rw [List.getElem?_append_left this]; exact hp
      · simp only [List.getElem?_cons_succ] at hl
        have := hrec i l hl
        simpa using this
    · simp only [h10, if_false] at hl ⊢
      have hrec := ih pre (cur ++ [c]) hp (by simp [hc]; exact fun h => h10 h.symm)
      simp only [List.length_append, List.length_cons, List.length_nil, Nat.zero_add, ← Nat.add_assoc] at hrec
      have hass : pre ++ (cur ++ [c]) ++ cs = pre ++ cur ++ c :: cs := by simp
      rw [hass] at hrec
      exact hrec i l hl

theorem linesFrom_consec (bs : Bytes) : ∀ s idx i l l', (linesFrom s idx bs)[i]? = some l →
    (linesFrom s idx bs)[i + 1]? = some l' → l.stop = l'.start := by
  induction bs with
  | nil => intro s idx i l l' h1 h2; simp [linesFrom] at h1 h2
  | cons c cs ih =>
    intro s idx i l l' h1 h2
    simp only [linesFrom] at h1 h2
    split at h1
    · rename_i hc; simp only [hc, if_true] at h2
      rcases i with _ | i
      · simp at h1 h2; subst h1
        obtain ⟨m, ms, e, e1, e2⟩ := linesFrom_head cs (idx + 1) (idx + 1)
        rw [e] at h2; simp at h2; subst h2; exact e1.symm
      · simp only [List.getElem?_cons_succ] at h1 h2
        exact ih _ _ _ _ _ h1 h2
    · rename_i hc; simp only [hc, if_false] at h2
      exact ih _ _ _ _ _ h1 h2

/-- The line a position falls into. -/
theorem linesFrom_at (bs : Bytes) : ∀ (s idx n k : Nat), s ≤ idx → k ≤ bs.length →
    ∃ l, (linesFrom s idx bs)[((bs.take k).foldl lcStep (n, idx - s)).1 - n]? = some l ∧
      n ≤ ((bs.take k).foldl lcStep (n, idx - s)).1 ∧
      l.start + ((bs.take k).foldl lcStep (n, idx - s)).2 = idx + k ∧ idx + k ≤ l.stop := by
  induction bs with
  | nil =>
    intro s idx n k hs hk
    simp at hk; subst hk
    exact ⟨_, by simp [linesFrom]; rfl, by simp, by simp; omega, by simp⟩
  | cons c cs ih =>
    intro s idx n k hs hk
    rcases k with _ | k
    · obtain ⟨l, ls, e, e1, e2⟩ := linesFrom_head (c :: cs) s idx
      exact ⟨l, by simp [e], by simp, by simp; omega, by simpa using e2⟩
    · simp only [List.take_succ_cons, List.foldl_cons, lcStep, linesFrom]
      split
      · obtain ⟨l, h1, h2, h3, h4⟩ := ih (idx + 1) (idx + 1) (n + 1) k (Nat.le_refl _) (by simpa using hk)
        simp only [Nat.sub_self] at h1 h2 h3
        refine ⟨l, ?_, by omega, by omega, by omega⟩
        rw [show ((cs.take k).foldl lcStep (n + 1, 0)).1 - n
          = (((cs.take k).foldl lcStep (n + 1, 0)).1 - (n + 1)) + 1 by omega]
        simpa using h1
      · obtain ⟨l, h1, h2, h3, h4⟩ := ih s (idx + 1) n k (by omega) (by simpa using hk)
        rw [show idx + 1 - s = idx - s + 1 by omega] at h1 h2 h3
        exact ⟨l, h1, h2, by omega, by omega⟩

theorem lineAt_pos (bs : Bytes) (pos : Nat) (h : pos ≤ bs.length) :
    ∃ l, (linesFrom 0 0 bs)[lineOf bs pos]? = some l ∧ l.start + colOf bs pos = pos ∧ pos ≤ l.stop := by
  obtain ⟨l, h1, h2, h3, h4⟩ := linesFrom_at bs 0 0 0 pos (Nat.le_refl _) h
  simp only [Nat.sub_self, colOf_zero_foldl, Nat.sub_zero, Nat.zero_add] at h1 h2 h3 h4
  exact ⟨l, h1, h3, h4⟩

theorem linesFrom_ok0 (bs : Bytes) (i : Nat) (l : SourceLine) (h : (linesFrom 0 0 bs)[i]? = some l) :
    LineOk bs (i + 1 == (linesFrom 0 0 bs).length) l := by
  have := linesFrom_ok bs [] [] (Or.inl rfl) (by simp) i l
  simpa using this h

theorem linesFrom_flatten (bs : Bytes) : ∀ (pre cur : Bytes),
    ((linesFrom pre.length (pre.length + cur.length) bs).map
      (fun l => slice (pre ++ cur ++ bs) l.start l.stop)).flatten = cur ++ bs := by
  induction bs with
  | nil => intro pre cur; simp [linesFrom, slice]
  | cons c cs ih =>
    intro pre cur
    simp only [linesFrom]
    split
    · rename_i h; subst h
      have := ih (pre ++ cur ++ [10]) []
      simp only [List.length_append, List.length_cons, List.length_nil, Nat.add_zero, Nat.zero_add,
        List.append_nil, List.nil_append, List.append_assoc, List.cons_append] at this
      simp only [List.map_cons, List.flatten_cons, List.append_assoc, Nat.add_assoc]
      rw [this]
      simp [slice, List.take_append]
      exact List.take_of_length_le (by omega)
    · have := ih pre (cur ++ [c])
      simp only [List.length_append, List.length_cons, List.length_nil, Nat.zero_add, ← Nat.add_assoc] at this
      simpa using this

end Verif
