import Verif.Lemmas.ReadAll
import Verif.Lemmas.LexRun
/-! All tokens of a run. -/
namespace Verif.Lexer
open Grammar

/-- All literals, also those kept by the parser, are not both a regular expression and a list of words. -/
def LitsOk (s : Lexer) (held : List StrTerm) : Prop := ∀ t ∈ s.strterm.toList ++ held, TermOk t

theorem LitsOk.lit {s : Lexer} {held : List StrTerm} (h : LitsOk s held) : LitOk s :=
  fun t e => h t (by simp [e])

theorem new_lit {name : String} {bs : Bytes} {dec : Option DecoderFn} {s0 : Lexer} (h : Lexer.new name bs dec = .ok s0) : LitsOk s0 [] := by
  unfold Lexer.new at h
  cases hb : Buffer.new name bs dec with
  | error e => rw [hb] at h; cases h
  | ok b => rw [hb] at h; cases h; intro t ht; cases ht

theorem Driven.read {bs : Bytes} {x : Ext} {s0 : Lexer} (h0 : RunInv bs [] s0 []) (hl0 : LitsOk s0 []) (hn : bs.length + 1 < 2 ^ 31)
    {ts s held} (h : Driven x s0 ts s held) :
    LitsOk s held ∧ ∀ t ∈ ts, (WellRead t ∨ (t.tokenType = .tLABEL ∧ 13 ∈ t.tokenValue ∧ 13 ∈ bs)) ∧ LabelSized t := by
  induction h with
  | start => exact ⟨hl0, by simp⟩
  | @token ts s held t s' hd e hne ih =>
    have hi := Driven.inv h0 hd
    refine ⟨fun t ht => ?_, fun t' ht' => ?_⟩
    · rcases List.mem_append.1 ht with h1 | h1
      · exact Lits.yylex s _ s' e ih.1.lit t (Option.mem_toList.1 h1)
      · exact ih.1 t (List.mem_append_right _ h1)
    · rcases List.mem_append.1 ht' with h1 | h1
      · exact ih.2 t' h1
      · rw [List.mem_singleton] at h1; subst h1
        have := yylex_pc hi.inv ih.1.lit (by rw [hi.bytes]; exact hn) t' s' e hne
        rw [hi.bytes] at this; exact ⟨this, yylex_sized hi.inv ih.1.lit t' s' e⟩
  | action hd ha ih =>
    refine ⟨fun t ht => ?_, ih.2⟩
    obtain ⟨l, h1, h2⟩ := ha.literals
    exact ih.1 t (h2.subset (h1.symm.subset ht))

end Verif.Lexer
