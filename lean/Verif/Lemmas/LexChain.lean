import Verif.Lemmas.LexVars
import Verif.Lemmas.LexOpName
import Verif.Lemmas.LexFixed
/-! Numbers and the end of the source, in terms of the text that follows. -/
namespace Verif.Lexer
open NumberSpec OpSpec Verif.Props

/-- `rest` does not continue a number. -/
def EndsNumber (rest : Bytes) : Prop :=
  ∀ c, rest.head? = some c → NumberSpec.Stops c ∧ (c = asc '.' → ∃ d, rest.tail.head? = some d ∧ d ∉ ascs "0123456789" ∧ d ≠ 10 ∧ d ≠ 13)

theorem collapse_cons {w rest : Bytes} {c : UInt8} (h : collapse w = c :: rest) :
    ∃ d u, w = d :: u ∧ (d = c ∧ collapse u = rest ∨ d = 13 ∧ c = 10) := by
  cases w with
  | nil => simp [collapse] at h
  | cons d u =>
    refine ⟨d, u, rfl, ?_⟩
    by_cases hd : d = 13 ∧ ∃ r, u = 10 :: r
    · obtain ⟨rfl, r, rfl⟩ := hd
      rw [collapse] at h
      cases h
      exact .inr ⟨rfl, rfl⟩
    · rw [collapse_ne hd] at h
      cases h
      exact .inl ⟨rfl, rfl⟩

/-- What follows the number in the source. -/
theorem EndsNumber.raw {w rest : Bytes} (h : collapse w = rest) (hr : EndsNumber rest) :
    w = [] ∨ ∃ c u, w = c :: u ∧ NumberSpec.Stops c ∧ (c = asc '.' → ∃ d u', u = d :: u' ∧ ¬ Dec d ∧ d ≠ 13) := by
  cases rest with
  | nil =>
    left
    cases w with
    | nil => rfl
    | cons d u =>
      by_cases hd : d = 13 ∧ ∃ r, u = 10 :: r
      · obtain ⟨rfl, r, rfl⟩ := hd
        simp [collapse] at h
      · rw [collapse_ne hd] at h; cases h
  | cons c t =>
    obtain ⟨d, u, rfl, h1⟩ := collapse_cons h
    obtain ⟨h2, h3⟩ := hr c rfl
    refine .inr ⟨d, u, rfl, ?_⟩
    rcases h1 with ⟨rfl, h1⟩ | ⟨rfl, rfl⟩
    · refine ⟨h2, fun e => ?_⟩
      obtain ⟨d', h4, h5, h6, h7⟩ := h3 e
      simp only [List.tail_cons] at h4
      obtain ⟨t', rfl⟩ : ∃ t', t = d' :: t' := by cases t with
        | nil => cases h4
        | cons a l => cases h4; exact ⟨l, rfl⟩
      obtain ⟨e', u', rfl, h8⟩ := collapse_cons h1
      rcases h8 with ⟨rfl, -⟩ | ⟨-, rfl⟩
      · exact ⟨_, _, rfl, h5, h7⟩
      · exact absurd rfl h6
    · exact ⟨⟨by decide, by decide⟩, fun e => absurd e (by decide)⟩

/-- A number, with its first digit read. -/
theorem numeric_run {bs v rest : Bytes} {c : UInt8} {k : Kind} {p : Nat} {s : Lexer} (hw : Literal k (c :: v)) (h : OpFirst bs (v ++ rest) p s)
    (hlast : bs[p]? = some c) (hpb : s.buffer.pbeg ≤ p) (hr : EndsNumber rest) : Wp (parseNumeric c) (WordRead bs (c :: v) rest p (c :: v).length s (tokOf k) EXPR_END) s := by
  have hup := h.behind.inline.at'
  have hd : s.buffer.d.bytes = bs := hup.d
  have hne := literal_ne hw
  obtain ⟨hin, w, hw1, hw2⟩ := Inline.skip v h.behind.inline fun e he => (hne e (by simp [he])).1
  have hready : Ready s := ⟨hup.seq.good, h.behind.inline.noeof, hup.seq.nl, h.strterm, h.ls, h.le⟩
  have hc : Dec c := by
    obtain ⟨c', v', e, hc⟩ := literal_cons hw
    cases e; exact hc
  have hplen : s.buffer.pcur + v.length ≤ bs.length := by
    have := congrArg List.length hw1
    have := hup.le
    simp only [List.length_drop, List.length_append] at *; omega
  have hh : Here s.buffer v := by
    cases v with
    | nil => exact ⟨fun i hi => absurd hi (by simp), by have := hup.seq.good.hi; simpa using this⟩
    | cons a l =>
      refine here_of_slice hup.seq.good (fun e he => (hne e (by simp [he])).1) (h.behind.inline.lt (by simp)) ?_
      rw [hd]
      simp only [Spec.slice, hw1, Nat.add_sub_cancel_left, List.take_left']
  have hnolf : s.buffer.d.bytes[s.buffer.pcur - 1]? ≠ some 10 := by
    rw [h.pcur, Nat.add_sub_cancel, hd, hlast]
    simpa using (hne c (by simp)).1
  have hbeg : s.buffer.pbeg < s.buffer.pcur := by have := h.pcur; omega
  have hm : Mid s.buffer := { hup.seq.good with lt := hbeg, nolf := hnolf, nonl := hup.seq.nl }
  have hdig : MB.u8Digit c = true := byte_forall (p := fun c => Dec c → MB.u8Digit c = true) (by decide +kernel) c hc
  have he : Ends s.buffer (s.buffer.pcur + v.length) := by
    by_cases hq : s.buffer.pcur + v.length = s.buffer.pend
    · exact .inl hq
    have hlt : s.buffer.pcur + v.length < s.buffer.pend := by have := hh.le; omega
    refine .inr ⟨hlt, ?_⟩
    have hdrop : bs.drop (s.buffer.pcur + v.length) = w := by
      rw [← List.drop_drop, hw1, List.drop_left']; rfl
    rcases hr.raw hw2 with rfl | ⟨c', u, rfl, h1, h2⟩
    · have := congrArg List.length hdrop
      have := hup.seq.good.pend_le
      rw [hd] at this
      simp only [List.length_drop, List.length_nil] at *; omega
    · have hget : bs[s.buffer.pcur + v.length]? = some c' := by
        have := congrArg List.head? hdrop
        rwa [List.head?_drop] at this
      refine ⟨c', by rw [hd]; exact hget, h1, fun e => ?_⟩
      obtain ⟨d, u', rfl, h3, h4⟩ := h2 e
      have hget2 : bs[s.buffer.pcur + v.length + 1]? = some d := by
        have := congrArg (fun l => l[1]?) hdrop
        simpa only [List.getElem?_drop, List.getElem?_cons_succ, List.getElem?_cons_zero] using this
      refine ⟨?_, d, by rw [hd]; exact hget2, h3, h4⟩
      by_contra hn
      rcases hup.seq.good.lineEnd with h7 | h7
      · rw [hd] at h7
        have := (List.getElem?_eq_some_iff.1 hget2).1
        omega
      · rw [hd, show s.buffer.pend - 1 = s.buffer.pcur + v.length by omega, hget, e] at h7
        exact absurd h7 (by decide)
  have ha : NumAhead s.buffer v := by
    refine hh.ahead hready (pre := [c]) (by simp) ?_ ?_ ?_ hne he
    · have := h.pcur; simp; omega
    · simp; omega
    · intro i hi
      obtain rfl : i = 0 := by simpa using hi
      simpa [h.pcur, hd] using hlast
  have k1 := parseNumeric_unsigned hw ha
  have k2 := parseNumeric_wp hm (.inl hdig)
  obtain ⟨t, s', e, hdn, hl, hg⟩ := k1.and k2
  have hk := Keeps.parseNumeric _ _ _ hup.seq.nl e
  have hst := parseNumeric_state hup.seq.nl e
  have hpt := hk.ptok hdn.quiet hl.1.same.lineCount
  have hd' : s'.buffer.d = s.buffer.d := by simp only [Buffer.d, hl.1.same.input]
  have hp : s'.buffer.pcur = p + (c :: v).length := by rw [hdn.pos, h.pcur]; simp only [List.length_cons]; omega
  have hprev : bs[p + v.length]? ≠ some 10 := by
    intro e10
    have e : bs.drop p = c :: v ++ w := by
      obtain ⟨g1, g2⟩ := List.getElem?_eq_some_iff.1 hlast
      rw [List.drop_eq_getElem_cons g1, g2, ← h.pcur, hw1]; rfl
    have := congrArg (fun l => l[v.length]?) e
    rw [List.getElem?_drop, e10, List.getElem?_append_left (by simp)] at this
    exact (hne 10 (List.mem_of_getElem? this.symm)).1 rfl
  refine ⟨t, s', e, hdn.tok, ⟨⟨hg, ?_, ?_, ?_⟩, by rw [hd', hd], ?_⟩, hp, hpt.trans h.ptok, .inr hdn.val, hl.2.1.trans h.strterm, hl.2.2.1.trans h.ls,
    hl.2.2.2.1.trans h.le, hdn.quiet, hst⟩
  · rw [hl.1.same.nextline]; exact hup.seq.nl
  · rw [hl.1.same.lineCount, hl.1.same.lastline]; exact hup.seq.lc
  · intro e
    rcases hg.lineEnd with h7 | h7
    · rw [hdn.eof e, h7]
    · rw [← hdn.eof e, hp, hd', hd, List.length_cons, ← Nat.add_assoc, Nat.add_sub_cancel] at h7
      exact absurd h7 hprev
  · rw [hp, List.length_cons, show p + (v.length + 1) = s.buffer.pcur + v.length by rw [h.pcur]; omega, ← List.drop_drop, hw1, List.drop_left']
    · exact hw2
    · rfl

theorem dispatch_digit {x : Ext} {c : UInt8} {cmd ts sp : Bool} {s : Lexer} {st : LexState} (hc : Dec c) {Q : Next → Lexer → Prop}
    (hq : Wp (parseNumeric c) (fun t s' => Q (.tok t) s') s) : Wp (dispatch x c sp st cmd ts) Q s := by
  have key := byte_forall (p := fun c => Dec c → c ≠ 13 ∧ ¬ (c = 0 ∨ c = 4 ∨ c = 0x1a) ∧ ¬ (c = asc ' ' ∨ c = 9 ∨ c = 12 ∨ c = 11) ∧
    (∀ d ∈ ascs "#*!=<>\"`'?&|+-.", c ≠ d) ∧ c ≠ 10 ∧ MB.u8Digit c = true) (by decide +kernel) c hc
  obtain ⟨k1, k2, k3, k4, k5, k6⟩ := key
  unfold dispatch
  iterate 19 refine Wp.ite (fun e => absurd e (by first | exact k2 | exact k1 | exact k3 | exact k5 | exact k4 _ (by decide))) fun _ => ?_
  exact Wp.ite (fun _ => Wp.bind (hq.mono fun t s' h => Wp.pure h)) fun e => absurd k6 e

/-- The token of a number. -/
theorem yylex_literal {x : Ext} {bs blanks w rest : Bytes} {k : Kind} {s : Lexer} (h : Upcoming bs (blanks ++ (w ++ rest)) s.buffer)
    (hb : SkipsTo x bs s.lexState blanks (w ++ rest)) (hw : Literal k w) (hr : EndsNumber rest) (hst : s.strterm = none) (hls : s.lvalStart = none) (hle : s.lvalEnd = none) :
    Wp (yylex x) (WordToken bs w rest (tokOf k) EXPR_END (s.buffer.pcur + blanks.length) w.length s) s := by
  obtain ⟨c, v, rfl, hc⟩ := literal_cons hw
  refine yylex_first h hb (fun e he => (literal_ne hw e he).1) (by cases k <;> decide) (List.prefix_refl _) hst hls hle fun cmd ts sp s1 _ h2 h3 h4 => ?_
  exact dispatch_digit hc ((numeric_run hw h2 h3 h4 hr).mono fun t s' h => ⟨t, rfl, h⟩)

end Verif.Lexer
