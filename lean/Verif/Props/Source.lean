import Verif.Lemmas.Source
import Verif.Lemmas.Utf8
/-! Property theorems C01 - C08 (source lines, positions, locations, comments, diagnostics). -/
namespace Verif.Props
open Verif Spec

/-- A freshly filled input: what `update_bytes` makes of any previous value. -/
abbrev mk (name : String) (bytes : Bytes) : DecodedInput := (DecodedInput.named name).updateBytes bytes

/-! ### C01 -/

/-- **C01** The line table partitions the input (whatever the input object held before). -/
theorem C01_lines_partition (d : DecodedInput) (bytes : Bytes) :
    let ls := (d.updateBytes bytes).lines
    -- the stored bytes are the given ones, and gluing the line slices together gives them back
    (d.updateBytes bytes).bytes = bytes ∧
    (ls.map (fun l => slice bytes l.start l.stop)).flatten = bytes ∧
    -- first line starts at 0, last line ends at the end, consecutive lines touch
    (∃ l, ls[0]? = some l ∧ l.start = 0) ∧
    (∃ l, ls.getLast? = some l ∧ l.stop = bytes.length) ∧
    (∀ i l l', ls[i]? = some l → ls[i + 1]? = some l' → l.stop = l'.start) ∧
    -- every line is a valid range; all but the last are "LF-free text, then LF"; the last is LF-free
    (∀ i l, ls[i]? = some l → l.start ≤ l.stop ∧ l.stop ≤ bytes.length ∧
      (l.endsWithEof = true ↔ i + 1 = ls.length) ∧
      (if i + 1 = ls.length then LF ∉ slice bytes l.start l.stop
       else ∃ body, slice bytes l.start l.stop = body ++ [LF] ∧ LF ∉ body)) := by
  simp only [updateBytes_lines]
  refine ⟨rfl, ?_, ?_, ?_, ?_, ?_⟩
  · simpa using linesFrom_flatten bytes [] []
  · obtain ⟨l, ls, e, e1, _⟩ := linesFrom_head bytes 0 0
    exact ⟨l, by simp [e], e1⟩
  · obtain ⟨l, h1, _, h3, _⟩ := linesFrom_last bytes 0 0 (Nat.le_refl _)
    exact ⟨l, h1, by omega⟩
  · intro i l l'; exact linesFrom_consec bytes 0 0 i l l'
  · intro i l h
    obtain ⟨h1, h2, h3, h4, h5⟩ := linesFrom_ok0 bytes i l h
    refine ⟨h1, h2, by rw [h3]; simp, ?_⟩
    by_cases hi : i + 1 = (linesFrom 0 0 bytes).length
    · simp [hi] at h4 ⊢; exact h4
    · simp only [hi, if_false]
      simp only [beq_iff_eq, hi, if_false] at h4
      obtain ⟨h41, h42, h43⟩ := h4
      refine ⟨slice bytes l.start (l.stop - 1), ?_, h43⟩
      have hlt : l.stop - 1 < bytes.length := by omega
      have hg : bytes[l.stop - 1] = LF := by
        rw [List.getElem?_eq_getElem hlt] at h42; exact Option.some.inj h42
      unfold slice
      rw [show l.stop - l.start = (l.stop - 1 - l.start) + 1 by omega, List.take_add_one]
      congr 1
      rw [List.getElem?_drop, show l.start + (l.stop - 1 - l.start) = l.stop - 1 by omega, h42]
      rfl

/-- Non-trivial instance of C01: two LF-terminated lines and an unterminated one. -/
example : ((mk "x" (ascs "a\n\nbc")).lines.map (fun l => (l.start, l.stop, l.endsWithEof)))
    = [(0, 2, false), (2, 3, false), (3, 5, true)] := by decide

/-! ### C02, C03 -/

/-- **C02** `line_col_for_pos` is (line feeds before, distance to line start), defined exactly up to EOF, and
never panics. -/
theorem C02_line_col (d : DecodedInput) (bytes : Bytes) (pos : Nat) :
    (d.updateBytes bytes).lineColForPos pos
      = .ok (if pos ≤ bytes.length then some (lineOf bytes pos, colOf bytes pos) else none) :=
  lineColForPos_eq d bytes pos

example : (mk "x" (ascs "ab\ncd\n")).lineColForPos 4 = .ok (some (1, 1)) := by decide
example : (mk "x" (ascs "ab\ncd\n")).lineColForPos 6 = .ok (some (2, 0)) := by decide
example : (mk "x" (ascs "ab\ncd\n")).lineColForPos 7 = .ok none := by decide
example : (lineOf (ascs "ab\ncd\n") 4, colOf (ascs "ab\ncd\n") 4) = (1, 1) := by decide

/-- **C03** (round trip) the line start plus the column is the position. -/
theorem C03_round_trip (d : DecodedInput) (bytes : Bytes) (pos line col : Nat)
    (h : (d.updateBytes bytes).lineColForPos pos = .ok (some (line, col))) :
    ∃ l, (d.updateBytes bytes).lineAt line = .ok l ∧ l.start + col = pos ∧ pos ≤ l.stop := by
  rw [lineColForPos_eq] at h
  by_cases hp : pos ≤ bytes.length
  · simp [hp] at h
    obtain ⟨rfl, rfl⟩ := h
    obtain ⟨l, h1, h2, h3⟩ := lineAt_pos bytes pos hp
    exact ⟨l, by simp [DecodedInput.lineAt, updateBytes_lines, h1], h2, h3⟩
  · simp [hp] at h

theorem lineOf_mono (bytes : Bytes) {p q : Nat} (h : p ≤ q) : lineOf bytes p ≤ lineOf bytes q := by
  unfold lineOf
  have : bytes.take p = (bytes.take q).take p := by rw [List.take_take, Nat.min_eq_left h]
  rw [this]
  exact ((List.take_sublist p (bytes.take q)).count_le LF)

/-- **C03** (order) positions are ordered as their (line, column) pairs, lexicographically. In particular the
pairs of different positions differ. -/
theorem C03_order (d : DecodedInput) (bytes : Bytes) (p q l1 c1 l2 c2 : Nat)
    (hp : (d.updateBytes bytes).lineColForPos p = .ok (some (l1, c1)))
    (hq : (d.updateBytes bytes).lineColForPos q = .ok (some (l2, c2))) :
    p < q ↔ l1 < l2 ∨ (l1 = l2 ∧ c1 < c2) := by
  have key : ∀ p q l1 c1 l2 c2, (d.updateBytes bytes).lineColForPos p = .ok (some (l1, c1)) →
      (d.updateBytes bytes).lineColForPos q = .ok (some (l2, c2)) → p < q →
      l1 < l2 ∨ (l1 = l2 ∧ c1 < c2) := by
    intro p q l1 c1 l2 c2 hp hq hlt
    obtain ⟨a, ha, ha2, _⟩ := C03_round_trip d bytes p l1 c1 hp
    obtain ⟨b, hb, hb2, _⟩ := C03_round_trip d bytes q l2 c2 hq
    have hm : l1 ≤ l2 := by
      rw [lineColForPos_eq] at hp hq
      split at hp <;> simp at hp
      split at hq <;> simp at hq
      rw [← hp.1, ← hq.1]; exact lineOf_mono bytes (Nat.le_of_lt hlt)
    rcases Nat.lt_or_eq_of_le hm with h | h
    · exact Or.inl h
    · subst h
      rw [ha] at hb; cases hb
      right; exact ⟨rfl, by omega⟩
  constructor
  · exact key p q l1 c1 l2 c2 hp hq
  · intro h
    rcases Nat.lt_trichotomy p q with h1 | h1 | h1
    · exact h1
    · subst h1; rw [hp] at hq; cases hq; omega
    · have := key q p l2 c2 l1 c1 hq hp h1; omega

example : (mk "x" (ascs "ab\ncd\n")).lineColForPos 2 = .ok (some (0, 2)) ∧
    (mk "x" (ascs "ab\ncd\n")).lineColForPos 3 = .ok (some (1, 0)) := by decide

/-! ### C04 -/

/-- Body of the line an in-range position belongs to. -/
theorem line_body (bytes : Bytes) (pos : Nat) (hp : pos ≤ bytes.length) (d : DecodedInput) :
    ∃ l a b, (d.updateBytes bytes).lineAt (lineOf bytes pos) = .ok l ∧ l.lineEnd = .ok b ∧ l.start = a ∧
      IsLineBody bytes a b ∧ a ≤ pos ∧ pos ≤ b ∧ a + colOf bytes pos = pos := by
  obtain ⟨l, h1, h2, h3⟩ := lineAt_pos bytes pos hp
  have hc : pos < l.stop ∨ l.endsWithEof = true := by
    by_cases hlt : pos < l.stop
    · exact Or.inl hlt
    · right
      have hps : pos = l.stop := by omega
      have hok := linesFrom_ok0 bytes _ l h1
      by_cases hi : lineOf bytes pos + 1 = (linesFrom 0 0 bytes).length
      · rw [hok.eof]; simp [hi]
      · exfalso
        have hb := hok.body
        simp only [beq_iff_eq, hi, if_false] at hb
        obtain ⟨hb1, hb2, _⟩ := hb
        -- the byte before `pos` is LF, so the column is 0, contradiction with start < stop
        have : colOf bytes pos = 0 := by
          unfold colOf
          have : bytes.take pos = bytes.take (pos - 1) ++ [LF] := by
            rw [hps, show l.stop = (l.stop - 1) + 1 by omega, List.take_add_one, hb2]
            simp
          rw [this]; simp
        omega
  obtain ⟨ho1, ho2, ho3, ho4, ho5⟩ := linesFrom_ok0 bytes _ l h1
  have hla : (d.updateBytes bytes).lineAt (lineOf bytes pos) = .ok l := by
    simp [DecodedInput.lineAt, updateBytes_lines, h1]
  by_cases hi : lineOf bytes pos + 1 = (linesFrom 0 0 bytes).length
  · simp only [beq_iff_eq.mpr hi, if_true] at ho4
    have hstop : l.stop = bytes.length := by
      obtain ⟨l', e1, _, e3, _⟩ := linesFrom_last bytes 0 0 (Nat.le_refl _)
      rw [List.getLast?_eq_getElem?, show (linesFrom 0 0 bytes).length - 1 = lineOf bytes pos by omega, h1] at e1
      cases e1; omega
    refine ⟨l, l.start, l.stop, hla, ?_, rfl, ⟨ho1, ho2, ho4, ho5, Or.inl hstop⟩, by omega, h3, h2⟩
    have heof : l.endsWithEof = true := by rw [ho3]; simp [hi]
    simp [SourceLine.lineEnd, heof]
  · have heof : l.endsWithEof = false := by rw [ho3]; simp [hi]
    simp only [beq_iff_eq, hi, if_false] at ho4
    obtain ⟨hb1, hb2, hb3⟩ := ho4
    refine ⟨l, l.start, l.stop - 1, hla, ?_, rfl, ⟨by omega, by omega, hb3, ho5, Or.inr hb2⟩, by omega, ?_, h2⟩
    · simp [SourceLine.lineEnd, heof, csub, show 1 ≤ l.stop by omega]
    · rcases hc with hc | hc
      · omega
      · rw [heof] at hc; cases hc

/-- **C04** `expand_to_line` never panics, succeeds exactly for `begin ≤ len`, and then returns the line number
and the maximal LF-free range around `begin`. -/
theorem C04_expand_to_line (d : DecodedInput) (bytes : Bytes) (loc : Loc) :
    (bytes.length < loc.begin → loc.expandToLine (d.updateBytes bytes) = .ok none) ∧
    (loc.begin ≤ bytes.length → ∃ a b,
      loc.expandToLine (d.updateBytes bytes) = .ok (some (lineOf bytes loc.begin, ⟨a, b⟩)) ∧
      IsLineBody bytes a b ∧ a ≤ loc.begin ∧ loc.begin ≤ b) := by
  constructor
  · intro h
    simp [Loc.expandToLine, Loc.beginLineCol, lineColForPos_eq, Nat.not_le.mpr h, bind, Except.bind, pure,
      Except.pure]
  · intro h
    obtain ⟨l, a, b, h1, h2, h3, h4, h5, h6, _⟩ := line_body bytes loc.begin h d
    refine ⟨a, b, ?_, h4, h5, h6⟩
    simp [Loc.expandToLine, Loc.beginLineCol, lineColForPos_eq, h, bind, Except.bind, pure, Except.pure, h1, h2,
      h3]

example : (Loc.mk 4 9).expandToLine (mk "x" (ascs "ab\ncd\nef")) = .ok (some (1, ⟨3, 5⟩)) := by decide

/-- The range of C04 is unique: no other range has these properties. -/
theorem C04_unique (bytes : Bytes) (pos a b a' b' : Nat) (h : IsLineBody bytes a b) (h' : IsLineBody bytes a' b')
    (ha : a ≤ pos ∧ pos ≤ b) (ha' : a' ≤ pos ∧ pos ≤ b') : a = a' ∧ b = b' := by
  have nolf : ∀ {a b : Nat}, IsLineBody bytes a b → ∀ i, a ≤ i → i < b → bytes[i]? ≠ some LF := by
    intro a b h i h1 h2 h3
    apply h.no_lf
    unfold slice
    rw [List.mem_iff_getElem?]
    refine ⟨i - a, ?_⟩
    rw [List.getElem?_take, if_pos (by omega), List.getElem?_drop, show a + (i - a) = i by omega]
    exact h3
  constructor
  · rcases Nat.lt_trichotomy a a' with hlt | heq | hlt
    · rcases h'.before with e | e
      · omega
      · exact absurd e (nolf h (a' - 1) (by omega) (by omega))
    · exact heq
    · rcases h.before with e | e
      · omega
      · exact absurd e (nolf h' (a - 1) (by omega) (by omega))
  · rcases Nat.lt_trichotomy b b' with hlt | heq | hlt
    · rcases h.after with e | e
      · have := h'.stop_le; omega
      · exact absurd e (nolf h' b (by omega) (by omega))
    · exact heq
    · rcases h'.after with e | e
      · have := h.stop_le; omega
      · exact absurd e (nolf h b' (by omega) (by omega))

/-! ### C05 -/

/-- **C05** `Loc::source` never panics, is defined exactly on valid ranges, and is the lossy text of exactly those
bytes. -/
theorem C05_source (d : DecodedInput) (bytes : Bytes) (loc : Loc) :
    loc.source (d.updateBytes bytes)
      = .ok (if loc.begin ≤ loc.stop ∧ loc.stop ≤ bytes.length
             then some (Utf8.lossy (slice bytes loc.begin loc.stop)) else none) := by
  by_cases h : loc.begin ≤ loc.stop ∧ loc.stop ≤ bytes.length
  · simp [Loc.source, DecodedInput.substrAt, DecodedInput.sliceChecked, h, bind, Except.bind, pure, Except.pure,
      slice]
  · simp [Loc.source, DecodedInput.substrAt, h, bind, Except.bind, pure, Except.pure]

/-- **C05** (exactness) on well-formed bytes the returned text encodes back to exactly the source bytes. -/
theorem C05_source_exact (d : DecodedInput) (bytes : Bytes) (loc : Loc)
    (h : loc.begin ≤ loc.stop) (h' : loc.stop ≤ bytes.length)
    (hv : Utf8.valid (slice bytes loc.begin loc.stop) = true) :
    ∃ t, loc.source (d.updateBytes bytes) = .ok (some t) ∧ Utf8.encodeAll t = slice bytes loc.begin loc.stop :=
  ⟨_, by rw [C05_source, if_pos ⟨h, h'⟩], Utf8.encodeAll_lossy hv⟩

/-- Every text is well-formed, and is read back unchanged. -/
theorem C05_text_round_trip (d : DecodedInput) (t : List Nat) (ht : ∀ c ∈ t, Utf8.isScalar c = true) :
    (Loc.mk 0 (Utf8.encodeAll t).length).source (d.updateBytes (Utf8.encodeAll t)) = .ok (some t) := by
  rw [C05_source]
  simp [slice, Utf8.lossy_encodeAll ht]

example : (Loc.mk 1 3).source (mk "x" [0x61, 0xC3, 0xA9, 0x62]) = .ok (some [0xE9]) := by decide
example : (Loc.mk 1 2).source (mk "x" [0x61, 0xC3, 0xA9, 0x62]) = .ok (some [0xFFFD]) := by decide
example : (Loc.mk 3 2).source (mk "x" [0x61, 0xC3, 0xA9, 0x62]) = .ok none := by decide

/-! ### C06 -/

/-- The three lines of a rendered diagnostic (before the final `trim`). -/
def Rendered (name : List Nat) (line col size : Nat) (level msg text : List Nat) : List Nat :=
  let pos := name ++ lit ":" ++ natText (line + 1)
  pos ++ lit ":" ++ natText col ++ lit ": " ++ level ++ lit ": " ++ msg ++ lit "\n" ++
  pos ++ lit ": " ++ text ++ lit "\n" ++
  pos ++ lit ": " ++ (List.replicate col 32 ++ lit "^" ++ List.replicate (size - 1) 126)

/-- **C06** `render` is defined exactly for `begin ≤ len`; for forward ranges it does not panic and shows the right
position, the right source line and the right marker. -/
theorem C06_render (d : DecodedInput) (bytes : Bytes) (g : Diagnostic) (hfwd : g.loc.begin ≤ g.loc.stop) :
    (bytes.length < g.loc.begin → g.render (d.updateBytes bytes) = .ok none) ∧
    (g.loc.begin ≤ bytes.length → ∃ a b, IsLineBody bytes a b ∧ a ≤ g.loc.begin ∧ g.loc.begin ≤ b ∧
      g.render (d.updateBytes bytes) = .ok (some (trim (Rendered (lit d.name)
        (lineOf bytes g.loc.begin) (g.loc.begin - a) (g.loc.stop - g.loc.begin) g.level.text g.message
        (Utf8.lossy (slice bytes a b)))))) := by
  constructor
  · intro h
    simp [Diagnostic.render, (C04_expand_to_line d bytes g.loc).1 h, bind, Except.bind, pure, Except.pure]
  · intro h
    obtain ⟨l, a, b, h1, h2, h3, h4, h5, h6, h7⟩ := line_body bytes g.loc.begin h d
    refine ⟨a, b, h4, h5, h6, ?_⟩
    have he : g.loc.expandToLine (d.updateBytes bytes) = .ok (some (lineOf bytes g.loc.begin, ⟨a, b⟩)) := by
      simp [Loc.expandToLine, Loc.beginLineCol, lineColForPos_eq, h, bind, Except.bind, pure, Except.pure, h1, h2,
        h3]
    have hcol : g.loc.begin - a = colOf bytes g.loc.begin := by omega
    have hs : (Loc.mk a b).source (d.updateBytes bytes) = .ok (some (Utf8.lossy (slice bytes a b))) := by
      rw [C05_source, if_pos ⟨h4.le, h4.stop_le⟩]
    have hhl : Diagnostic.highlight (colOf bytes g.loc.begin) (g.loc.stop - g.loc.begin)
        = List.replicate (colOf bytes g.loc.begin) 32 ++ lit "^" ++
          List.replicate (g.loc.stop - g.loc.begin - 1) 126 := by
      unfold Diagnostic.highlight
      have : lit "^" = [94] := by decide
      rw [this]
      split
      · rfl
      · rw [show g.loc.stop - g.loc.begin - 1 = 0 by omega]; rfl
    simp only [Diagnostic.render, he, hs, Loc.beginLineCol, lineColForPos_eq, h, if_true, bind, Except.bind, pure,
      Except.pure, Loc.size, csub_of_le hfwd, hhl, hcol, Rendered, updateBytes_name]

/-- A reversed location inside the input makes `render` panic (the hypothesis of C06 is needed). -/
theorem C06_reversed_panics :
    (Diagnostic.mk .error [] ⟨2, 1⟩).render (mk "x" (ascs "abc")) = .error .underflow := by decide

example : ((Diagnostic.mk .warning (lit "msg") ⟨4, 6⟩).render (mk "f" (ascs "ab\ncdef\n")))
    = .ok (some (lit "f:2:1: warning: msg\nf:2: cdef\nf:2:  ^~")) := by decide

/-! ### C07 -/

/-- Range containment. -/
def Within (a b : Loc) : Prop := b.begin ≤ a.begin ∧ a.stop ≤ b.stop

/-- **C07** join is the least upper bound for containment, hence commutative, associative, idempotent. -/
theorem C07_join_lub (a b : Loc) :
    Within a (a.join b) ∧ Within b (a.join b) ∧ (∀ c, Within a c → Within b c → Within (a.join b) c) := by
  simp only [Within, Loc.join]
  refine ⟨⟨by omega, by omega⟩, ⟨by omega, by omega⟩, ?_⟩
  intro c h1 h2; constructor <;> omega

theorem C07_join_comm (a b : Loc) : a.join b = b.join a := by
  simp [Loc.join, Nat.min_comm, Nat.max_comm]

theorem C07_join_assoc (a b c : Loc) : (a.join b).join c = a.join (b.join c) := by
  simp [Loc.join, Nat.min_assoc, Nat.max_assoc]

theorem C07_join_idem (a : Loc) : a.join a = a := by simp [Loc.join]

theorem C07_maybe_join (a : Loc) (o : Option Loc) :
    Within a (a.maybeJoin o) ∧ (∀ b, o = some b → Within b (a.maybeJoin o)) := by
  cases o with
  | none => exact ⟨⟨Nat.le_refl _, Nat.le_refl _⟩, by intro b h; cases h⟩
  | some c =>
    have := C07_join_lub a c
    exact ⟨this.1, by intro b h; cases h; exact this.2.1⟩

example : (Loc.mk 3 5).join (Loc.mk 1 4) = ⟨1, 5⟩ := by decide

/-! ### C08 -/

/-- Bytes start with the ASCII string `p`. -/
def StartsWith (bs : Bytes) (p : String) : Prop := ∃ tl, bs = ascs p ++ tl

theorem lossy_prefix_iff (p : Bytes) (hp : ∀ b ∈ p, b.toNat < 128) (bs : Bytes) :
    (p.map UInt8.toNat).isPrefixOf (Utf8.lossy bs) = true ↔ ∃ tl, bs = p ++ tl := by
  induction p generalizing bs with
  | nil => simp
  | cons b p ih =>
    cases bs with
    | nil => simp [Utf8.lossy, Utf8.chunks, Utf8.chunksN]
    | cons c cs =>
      by_cases hc : c.toNat < 128
      · rw [Utf8.lossy_cons_ascii hc]
        simp only [List.map_cons, List.isPrefixOf_cons_cons, Bool.and_eq_true, beq_iff_eq, List.cons_append,
          List.cons.injEq]
        rw [ih (fun x hx => hp x (by simp [hx]))]
        constructor
        · rintro ⟨h, tl, rfl⟩; exact ⟨tl, (Utf8.u8_ext h).symm, rfl⟩
        · rintro ⟨tl, rfl, rfl⟩; exact ⟨rfl, tl, rfl⟩
      · obtain ⟨n, t, e, hn⟩ := Utf8.lossy_cons_not_ascii (Nat.le_of_not_lt hc) cs
        have hb := hp b (by simp)
        rw [e]
        simp only [List.map_cons, List.isPrefixOf_cons_cons, Bool.and_eq_true, beq_iff_eq]
        constructor
        · rintro ⟨h, _⟩; omega
        · rintro ⟨tl, h⟩; simp at h; rw [h.1] at hc; omega

/-- **C08** the kind of a comment is determined by the source text at its location; the location is kept. -/
theorem C08_comment_kind (d : DecodedInput) (bytes : Bytes) (loc : Loc) :
    ∃ c, Comment.new loc (d.updateBytes bytes) = .ok c ∧ c.location = loc ∧
      (c.kind = .inline ↔ loc.begin ≤ loc.stop ∧ loc.stop ≤ bytes.length ∧
        StartsWith (slice bytes loc.begin loc.stop) "#") ∧
      (c.kind = .document ↔ loc.begin ≤ loc.stop ∧ loc.stop ≤ bytes.length ∧
        StartsWith (slice bytes loc.begin loc.stop) "=begin") := by
  have h1 : ∀ bs, textStartsWith (Utf8.lossy bs) "#" = true ↔ StartsWith bs "#" := by
    intro bs
    have := lossy_prefix_iff (ascs "#") (by decide) bs
    exact this
  have h2 : ∀ bs, textStartsWith (Utf8.lossy bs) "=begin" = true ↔ StartsWith bs "=begin" := by
    intro bs
    have := lossy_prefix_iff (ascs "=begin") (by decide) bs
    exact this
  have hex : ∀ bs, StartsWith bs "#" → ¬ StartsWith bs "=begin" := by
    rintro bs ⟨t, rfl⟩ ⟨t', h⟩
    simp [ascs, asc] at h
  unfold Comment.new
  rw [C05_source]
  by_cases hr : loc.begin ≤ loc.stop ∧ loc.stop ≤ bytes.length
  · simp only [hr, and_self, if_true, bind, Except.bind, pure, Except.pure, true_and]
    refine ⟨_, rfl, rfl, ?_⟩
    simp only []
    by_cases ha : textStartsWith (Utf8.lossy (slice bytes loc.begin loc.stop)) "#" = true
    · have := hex _ ((h1 _).mp ha)
      simp [ha, (h1 _).mp ha, this]
    · have ha' : ¬ StartsWith (slice bytes loc.begin loc.stop) "#" := fun h => ha ((h1 _).mpr h)
      by_cases hb : textStartsWith (Utf8.lossy (slice bytes loc.begin loc.stop)) "=begin" = true
      · simp [ha, ha', hb, (h2 _).mp hb]
      · have hb' : ¬ StartsWith (slice bytes loc.begin loc.stop) "=begin" := fun h => hb ((h2 _).mpr h)
        simp [ha, ha', hb, hb']
  · simp only [hr, if_false, bind, Except.bind, pure, Except.pure]
    refine ⟨_, rfl, rfl, ?_⟩
    constructor
    · constructor
      · intro h; cases h
      · rintro ⟨a, b, _⟩; exact absurd ⟨a, b⟩ hr
    · constructor
      · intro h; cases h
      · rintro ⟨a, b, _⟩; exact absurd ⟨a, b⟩ hr

example : Comment.new ⟨2, 4⟩ (mk "x" (ascs "1 #a\n")) = .ok ⟨⟨2, 4⟩, .inline⟩ := by decide
example : Comment.new ⟨0, 7⟩ (mk "x" (ascs "=begin\n")) = .ok ⟨⟨0, 7⟩, .document⟩ := by decide

end Verif.Props
