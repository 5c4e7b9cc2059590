import Verif.Lemmas.LexOpTable
import Verif.Lemmas.LexNl
/-! The call of a method at the start of a line. -/
namespace Verif.Lexer
open OpSpec

/-- A call at the start of a line continues the line before. -/
theorem yylex_lead {x : Ext} {bs g0 com g rest : Bytes} {s : Lexer} {o : String × Tok × Place} (h : Upcoming bs (g0 ++ (com ++ 10 :: (g ++ (ascs o.1 ++ rest)))) s.buffer)
    (hb : SkipsTo x bs s.lexState g0 (com ++ 10 :: (g ++ (ascs o.1 ++ rest)))) (hcom : Remark com) (hg : ∀ c ∈ g, Blank c) (hcr : 13 ∉ bs) (ho : o ∈ infixes) (hdot : o.1 = "." ∨ o.1 = "&.") (hl : Longest o.1 rest)
    (hnum : o.1 = "." → ∀ c, rest.head? = some c → ¬ Digit c) (ha : AfterOperand s.lexState ∨ AfterName s.lexState) (he : EndsLine s.lexState)
    (hst : s.strterm = none) (hls : s.lvalStart = none) (hle : s.lvalEnd = none) :
    Wp (yylex x) (OpToken bs (ascs o.1) rest o.2.1 o.2.2 (s.buffer.pcur + (g0 ++ (com ++ 10 :: g)).length) s) s := by
  obtain ⟨h1, h2, h3⟩ := infix_tok ho
  obtain ⟨c, tl, hc⟩ := List.exists_cons_of_ne_nil h3
  have hdoc : ¬ ascs "=begin" <+: ascs o.1 ++ rest := by
    rcases hdot with e | e <;> rw [e] <;> rintro ⟨u, hu⟩ <;> simp [ascs, asc] at hu
  have hlead : (c = 46 ∧ (tl ++ rest).head? ≠ some 46) ∨ (c = 38 ∧ (tl ++ rest).head? = some 46) := by
    rcases hdot with e | e
    · rw [e] at hc
      obtain ⟨rfl, rfl⟩ : asc '.' = c ∧ [] = tl := by simpa [ascs] using hc
      refine .inl ⟨rfl, fun e2 => ?_⟩
      cases rest with
      | nil => cases e2
      | cons a r =>
        obtain rfl : a = 46 := by simpa using e2
        have := hl ("..", .tDOT2, .operand) (by decide) (by rw [e]; exact ⟨r, rfl⟩)
        rw [e] at this
        exact absurd this (by decide)
    · rw [e] at hc
      obtain ⟨rfl, rfl⟩ : asc '&' = c ∧ [asc '.'] = tl := by simpa [ascs] using hc
      exact .inr ⟨rfl, rfl⟩
  have h' : Upcoming bs ((g0 ++ (com ++ 10 :: g)) ++ (ascs o.1 ++ rest)) s.buffer := by simpa using h
  rw [hc] at h2 h' hb ⊢
  refine yylex_op h' (SkipsTo.trans (by simpa using hb) (skips_lead hcom hg hcr he (.inr hlead))) h2 h1 hst hls hle fun sp cmd ts s1 hsp hs hf => ?_
  rcases ha with ha | ha
  · have := dispatch_infix (x := x) (sp := sp) (cmd := cmd) (ts := ts) ho hc hf (AfterOperand.end' (by rw [hs.lexState]; exact ha)) hl
      ⟨hnum, fun e => by rcases hdot with e2 | e2 <;> rw [e2] at e <;> exact absurd e (by decide), fun e => by rcases hdot with e2 | e2 <;> rw [e2] at e <;> exact absurd e (by decide), hdoc⟩
    rwa [hc] at this
  · have hne : ∀ op' : String, op' ≠ "." → op' ≠ "&." → o.1 ≠ op' := fun op' h1 h2 e => by
      rcases hdot with e2 | e2
      · exact h1 (e.symm.trans e2)
      · exact h2 (e.symm.trans e2)
    have := fun blanks => dispatch_argument (x := x) (blanks := blanks) (cmd := cmd) (ts := ts) ho hc hf (AfterName.arg' (by rw [hs.lexState]; exact ha)) hl
      ⟨fun _ => by rcases hdot with e2 | e2 <;> rw [e2] <;> decide, fun _ e => by exfalso; revert e; rcases hdot with e2 | e2 <;> rw [e2] <;> decide, hne _ (by decide) (by decide),
        fun e => absurd e (hne _ (by decide) (by decide)), hnum, fun e => absurd e (hne _ (by decide) (by decide)), hdoc⟩
    rw [hc] at this
    cases sp with
    | false => exact this []
    | true => exact this [32]

end Verif.Lexer
