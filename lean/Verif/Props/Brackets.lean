import Verif.Lemmas.LexNest
import Verif.Props.Grammar
import Verif.Props.Numbers
/-! **C47**: what reading a token does to `cond`, `cmdarg` and `paren_nest`, and that the grammar's bookkeeping (C41) is about the real lexer. -/
namespace Verif.Props
open Verif.Grammar Verif.Lexer

/-- The three fields of the lexer together with the type of the last token. -/
def bits (s : Lexer) (last : Tok) : Bits := ⟨s.cond, s.cmdarg, s.parenNest, last⟩

/-- A `[` that was read where a method name is expected (after `def` or a dot) and did not continue to `[]` or `[]=`. -/
def Unnamed (s : Lexer) (t : Tok) (s' : Lexer) : Prop :=
  t = .tLBRACK2 ∧ s.lexState.isAfterOperator = true ∧ s'.cond = s.cond ∧ s'.cmdarg = s.cmdarg ∧ s'.parenNest = s.parenNest + 1

/-- **C47**. Reading a token that opens a bracket pushes 0 on `cond` and `cmdarg` and counts one more bracket; a token that closes one
undoes this; every other token leaves all three alone. The one exception is a `[` in the place of a method name: it is counted, but
nothing is pushed. -/
theorem C47_reading_brackets {x : Ext} {s : Lexer} {t : Token} {s' : Lexer} (last : Tok) (h : yylex x s = .ok (t, s')) :
    bits s' t.tokenType = (bits s last).read t.tokenType ∨ Unnamed s t.tokenType s' := by
  obtain ⟨op, h1, h2⟩ := yylex_moves h
  unfold Shifts at h1
  split at h1
  · rename_i hc
    exact .inr ⟨hc.1, h2 hc.2, h1⟩
  · left
    unfold Bits.read bits
    split at h1
    · rename_i ho
      simp only [ho, if_true, h1.1, h1.2.1, h1.2.2]
    · rename_i ho
      split at h1
      · rename_i hc
        simp only [ho, hc, if_true, h1.1, h1.2.1, h1.2.2]; rfl
      · rename_i hc
        simp only [ho, hc, h1.cond, h1.cmdarg, h1.paren]; rfl

/-- A parse as the lexer sees it: tokens are read from it, and actions change `cond` and `cmdarg` (and anything else except
`paren_nest`) in between. A `[` in the place of a method name ends a parse: no production has one there. -/
inductive Session (x : Ext) : Lexer → Tok → List Ev → Lexer → Tok → Prop
  | nil {s last} : Session x s last [] s last
  | read {s last t s1 es s2 last'} : yylex x s = .ok (t, s1) → (t.tokenType = .tLBRACK2 → s.lexState.isAfterOperator = false) →
      Session x s1 t.tokenType es s2 last' → Session x s last (.read t.tokenType :: es) s2 last'
  | op {s last o s1 es s2 last'} : bits s1 last = (bits s last).op o → Session x s1 last es s2 last' →
      Session x s last (.op o :: es) s2 last'

/-- **C47** (sessions). Along a parse the three fields of the lexer are those of the grammar's bookkeeping. -/
theorem C47_session {x : Ext} {s : Lexer} {last : Tok} {es : List Ev} {s' : Lexer} {last' : Tok} (h : Session x s last es s' last') :
    bits s' last' = (bits s last).run es := by
  induction h with
  | nil => rfl
  | @read s last t s1 es s2 last' h1 h2 _ ih =>
    rw [Bits.run, ih]
    rcases C47_reading_brackets last h1 with h | ⟨e, h, _⟩
    · rw [h]
    · rw [h2 e] at h; cases h
  | op h _ ih => rw [Bits.run, ih, h]

/-- **C47** (complete parses). After the tokens of a program were read by the lexer and the actions of its derivation were performed, in
whatever order, `assert_state_is_final` passes for the lexer's `cond`, `cmdarg` and `paren_nest`. -/
theorem C47_final {x : Ext} {name : String} {input : Bytes} {dec : Option DecoderFn} {s s' : Lexer} {es : List Ev} {last' : Tok}
    (hs : Lexer.new name input dec = .ok s) (t : Tree) (hwf : t.wf = true) (hr : t.root = some (.n NT.program))
    (ht : Ev.toks es = t.toks ++ [.END_OF_INPUT]) (ho : Ev.ops es = t.ops) (h : Session x s .END_OF_INPUT es s' last') :
    s'.cmdarg.isEmpty = true ∧ s'.cond.isEmpty = true ∧ s'.parenNest = 0 := by
  have hn : bits s .END_OF_INPUT = Bits.new := by
    unfold Lexer.new at hs
    simp only [Bind.bind, Except.bind, Pure.pure, Except.pure] at hs
    split at hs
    · cases hs
    · cases hs; rfl
  have hf := C41_bits_are_final t hwf hr es ht ho
  rw [← hn, ← C47_session h] at hf
  simpa [Bits.isFinal, bits, and_assoc] using hf

/-! ### Examples -/

/-- Performing a session; the actions change nothing but `cond` and `cmdarg`. -/
def perform (s : Lexer) (last : Tok) : List Ev → Option (Lexer × Tok)
  | [] => some (s, last)
  | .read t :: es =>
    match yylex asciiExt s with
    | .ok (u, s1) => if u.tokenType = t ∧ ¬(t = .tLBRACK2 ∧ s.lexState.isAfterOperator = true) then perform s1 t es else none
    | .error _ => none
  | .op o :: es =>
    let b := (bits s last).op o
    perform { s with cond := b.cond, cmdarg := b.cmdarg } last es

theorem perform_session {s : Lexer} {last : Tok} {es : List Ev} {r : Lexer × Tok} (h : perform s last es = some r) :
    Session asciiExt s last es r.1 r.2 := by
  induction es generalizing s last with
  | nil => cases h; exact .nil
  | cons e es ih =>
    cases e with
    | read t =>
      unfold perform at h
      split at h
      · rename_i u s1 hu
        split at h
        · rename_i hc
          obtain ⟨rfl, hc⟩ := hc
          refine .read hu (fun e => ?_) (ih h)
          cases ha : s.lexState.isAfterOperator with
          | false => rfl
          | true => exact absurd ⟨e, ha⟩ hc
        · cases h
      · cases h
    | op o =>
      refine .op ?_ (ih h)
      unfold bits
      cases o <;> simp [Bits.op] <;> split <;> rfl

/-- `m (1)`, read by the lexer: the parenthesis is read before the argument list starts. -/
example : ∃ s' last', Session asciiExt (startOf (ascs "m (1)") (by decide +kernel)) .END_OF_INPUT commandRun s' last' ∧
    s'.cmdarg.isEmpty = true ∧ s'.cond.isEmpty = true ∧ s'.parenNest = 0 := by
  have h : (perform (startOf (ascs "m (1)") (by decide +kernel)) .END_OF_INPUT commandRun).isSome = true := by decide +kernel
  obtain ⟨r, hr⟩ := Option.isSome_iff_exists.1 h
  refine ⟨r.1, r.2, perform_session hr, ?_⟩
  exact C47_final (startOf_new _ _) commandTree (by decide +kernel) (by decide +kernel) (by decide +kernel) (by decide +kernel) (perform_session hr)

/-- The exception: `x.[ ` counts a bracket without pushing; `x.[]` does not even count it. -/
def bracketsAfter (n : Nat) (src : Bytes) (h : (Lexer.new "(eval)" src none).toOption.isSome = true) : Option Tok × BitVec 64 × Int :=
  let s := (List.range n).foldl (fun s _ => after s) (startOf src h)
  let s := { s with cond := ⟨5⟩ }
  (nextType s, (after s).cond.stack, (after s).parenNest)
example : bracketsAfter 2 (ascs "x.[ 1") (by decide +kernel) = (some .tLBRACK2, 5, 1) := by decide +kernel
example : bracketsAfter 2 (ascs "x.[] 1") (by decide +kernel) = (some .tAREF, 5, 0) := by decide +kernel
example : bracketsAfter 1 (ascs "x[ 1") (by decide +kernel) = (some .tLBRACK2, 10, 1) := by decide +kernel
example : bracketsAfter 1 (ascs "(]") (by decide +kernel) = (some .tRBRACK, 2, 0) := by decide +kernel

end Verif.Props
