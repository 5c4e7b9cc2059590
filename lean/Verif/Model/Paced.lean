import Verif.Model.Driver
/-!
Runs of the lexer under a parser that puts a literal back only where the grammar does: after the end of an interpolation.
-/
namespace Verif

/-- `Driven`, but no literal is put back right after a newline token. In src/parser/parse.y a literal is put back in two actions
only: after `tSTRING_DVAR string_dvar` (5755; `string_dvar` is one variable token) and after `tSTRING_DBEG compstmt tSTRING_DEND`
(5783); so the token before is a variable or `}`. -/
inductive Paced (x : Ext) (s0 : Lexer) : List Token → Lexer → List StrTerm → Prop where
  | start : Paced x s0 [] s0 []
  | token {ts s held t s'} : Paced x s0 ts s held → Lexer.yylex x s = .ok (t, s') → t.tokenType ≠ .END_OF_INPUT →
      Paced x s0 (ts ++ [t]) s' held
  | action {ts s held s' held'} : Paced x s0 ts s held → Between s held s' held' →
      (∀ t, ts.getLast? = some t → t.tokenType = .tNL → s'.strterm = none ∨ s'.strterm = s.strterm) → Paced x s0 ts s' held'

theorem Paced.driven {x : Ext} {s0 : Lexer} {ts s held} (h : Paced x s0 ts s held) : Driven x s0 ts s held := by
  induction h with
  | start => exact .start
  | token _ e hne ih => exact .token ih e hne
  | action _ ha _ ih => exact .action ih ha

end Verif
