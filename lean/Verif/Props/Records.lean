import Verif.Lemmas.LexGrows
import Verif.Props.Lexing
/-!
C43: what the lexer has recorded stays recorded.
-/
namespace Verif.Props

section
variable {x : Ext} {s s' : Lexer}

/-- **C43** (one token). Reading a token leaves all diagnostics, comments and magic comments recorded so far in place, in the
same order, before the new ones. No assumption on the state: it holds even where nothing else is known of the lexer. -/
theorem C43_append_only {t : Token} (e : Lexer.yylex x s = .ok (t, s')) :
    s.diagnostics <+: s'.diagnostics ∧ s.comments <+: s'.comments ∧ s.magicComments <+: s'.magicComments :=
  let h := Lexer.Grows.yylex s t s' e
  ⟨h.diagnostics, h.comments, h.magicComments⟩

/-- **C43** (all tokens). The same for reading the whole input. -/
theorem C43_tokenize_append_only {n : Nat} {ts : List Token} (e : Lexer.tokenizeUntilEof x n s = .ok (ts, s')) :
    s.diagnostics <+: s'.diagnostics ∧ s.comments <+: s'.comments ∧ s.magicComments <+: s'.magicComments :=
  let h := Lexer.Grows.tokenizeUntilEof s ts s' e
  ⟨h.diagnostics, h.comments, h.magicComments⟩

/-- **C43** (between tokens of a parse). Comments recorded when a token was read are there in all later states of the run, however
the parser drives the lexer. -/
theorem C43_run_append_only {ts : List Token} {held : List StrTerm} (h : Driven x s ts s' held) :
    s.comments <+: s'.comments ∧ s.magicComments <+: s'.magicComments := by
  induction h with
  | start => exact ⟨List.prefix_refl _, List.prefix_refl _⟩
  | token _ e _ ih => exact ⟨ih.1.trans (C43_append_only e).2.1, ih.2.trans (C43_append_only e).2.2⟩
  | action _ hb ih => rw [hb.comments, hb.magicComments]; exact ih
end

/-- A run of the theorems above: two tokens, each of which comes with a diagnostic. -/
example : ((do
    let s ← Lexer.new "(eval)" (ascs "09 # c\n08 # d\n") none
    let (_, s1) ← Lexer.yylex asciiExt s
    let (_, s2) ← Lexer.yylex asciiExt s1
    let (_, s3) ← Lexer.yylex asciiExt s2
    return [s1, s2, s3].map fun s => (s.diagnostics.length, s.comments.length)) : Res _) =
    .ok [(1, 0), (1, 1), (2, 1)] := by decide +kernel

end Verif.Props
