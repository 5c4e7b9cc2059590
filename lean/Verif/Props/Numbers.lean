import Verif.Lemmas.LexToken
import Verif.Lemmas.LexNumSound
import Verif.Props.Lexing
/-!
C28: the value of a numeric token is its text.
-/
namespace Verif.Props
open Spec NumberSpec

/-- What may follow a numeric literal in the source: the end, or a byte that cannot continue it. -/
def LiteralEnd (bs : Bytes) (q : Nat) : Prop :=
  q = bs.length ∨ ∃ c, bs[q]? = some c ∧ StopsBefore c bs[q + 1]?

/-- The token type that stands for a kind of numeric literals. -/
def tokenOf : Kind → Tok
  | .integer => .tINTEGER
  | .float => .tFLOAT
  | .rational => .tRATIONAL
  | .imaginary => .tIMAGINARY

section
variable {name : String} {bs : Bytes} {dec : Option DecoderFn} {s0 : Lexer} {x : Ext} {ts : List Token} {s : Lexer} {held : List StrTerm}

/-- **C28** (every literal is read). Wherever the lexer is about to read a numeric literal of Ruby - decimal, hexadecimal, binary, octal, with
fraction, exponent, digit separators, rational and imaginary suffixes - it returns one token of the right kind that covers exactly the
literal and whose value is its text, and reports nothing. -/
theorem C28_literals_read (ha : Admissible name bs dec s0) (h : Driven x s0 ts s held) (hst : s.strterm = none)
    {k : Kind} {blanks w : Bytes} (hw : Literal k w) (hb : ∀ c ∈ blanks, c ∈ ascs " \t" ∨ c = 12 ∨ c = 11) {p : Nat} (hp : s.buffer.NextAt p)
    (htext : slice bs p (p + (blanks.length + w.length)) = blanks ++ w) (hend : LiteralEnd bs (p + (blanks.length + w.length))) :
    ∃ s', Lexer.yylex x s =
        .ok (⟨tokenOf k, w, ⟨p + blanks.length, p + (blanks.length + w.length)⟩⟩, s') ∧
      s'.diagnostics = s.diagnostics := by
  have hi := Lexer.Driven.inv ha.inv h
  have hbl : ∀ c ∈ blanks, Lexer.Blank c := by
    intro c hc
    rcases hb c hc with h | h | h
    · have : c = asc ' ' ∨ c = 9 := by simpa [ascs, show asc '\t' = 9 from rfl] using h
      rcases this with h | h
      · exact .inl h
      · exact .inr (.inl h)
    · exact .inr (.inr (.inl h))
    · exact .inr (.inr (.inr h))
  obtain ⟨c0, v, hwc, hc0⟩ := Lexer.literal_cons hw
  have hlen : p + (blanks.length + w.length) ≤ bs.length := by
    have := congrArg List.length htext
    simp only [slice, List.length_take, List.length_drop, List.length_append] at this
    have : 0 < w.length := by rw [hwc]; simp
    omega
  have hlt : p < s.buffer.d.bytes.length := by
    rw [hi.bytes]
    have : 0 < w.length := by rw [hwc]; simp
    omega
  obtain ⟨b, e, hr, hin, hpc, hpe⟩ := Lexer.yylex_at (x := x) hi.inv hst hp hlt
  have hd : b.d.bytes = bs := by rw [← hi.bytes]; simp only [Buffer.d, hin]
  have hne : ∀ c ∈ blanks ++ w, c ≠ 10 := by
    intro c hc
    rcases List.mem_append.1 hc with hc | hc
    · rcases hbl c hc with rfl | rfl | rfl | rfl <;> decide
    · exact (Lexer.literal_ne hw c hc).1
  have hh : Lexer.Here b (blanks ++ w) := Lexer.here_of_slice hr.good hne (by rw [hpc]; exact hpe)
    (by rw [hd, hpc, List.length_append]; exact htext)
  have hle := hh.le
  simp only [List.length_append, hpc] at hle
  have he : Lexer.Ends b (b.pcur + blanks.length + w.length) := by
    rw [hpc, Nat.add_assoc]
    by_cases hq : p + (blanks.length + w.length) = b.pend
    · exact .inl hq
    · refine .inr ⟨by omega, ?_⟩
      rcases hend with hend | ⟨c, h1, h2, h3⟩
      · have := hr.good.pend_le
        simp only at this
        rw [hd] at this
        omega
      · refine ⟨c, by rw [hd]; exact h1, h2, fun hc => ?_⟩
        obtain ⟨y, h4, h5, h6⟩ := h3 hc
        refine ⟨?_, y, by rw [hd]; exact h4, h5, h6⟩
        by_contra hn
        have hpe' : b.pend = p + (blanks.length + w.length) + 1 := by omega
        rcases hr.good.lineEnd with h7 | h7
        · simp only at h7
          rw [hd] at h7
          have := (List.getElem?_eq_some_iff.1 h4).1
          omega
        · simp only at h7
          rw [hpe', hd, Nat.add_sub_cancel, h1, hc] at h7
          exact absurd h7 (by decide)
  obtain ⟨t, s', e', ht, -, hq, -⟩ := Lexer.yylex_number (x := x) hw hbl hr hh he
  refine ⟨s', ?_, hq⟩
  rw [e, e', ht]
  have : Lexer.tokOf k = tokenOf k := by cases k <;> rfl
  rw [this, hpc, Nat.add_assoc]
/-- **C28**, what holds in full: the value of every numeric token that is read without a diagnostic is the text the token covers, except for
the two forms of `C28_negation`: an `e` that ends the input is part of the token and not of the value, and in a literal
that starts with `+0` and goes on with a base prefix or a digit the first two bytes are exchanged. -/
theorem C28_values_partial (ha : Admissible name bs dec s0) (h : Driven x s0 ts s held) {t : Token} {s' : Lexer}
    (e : Lexer.yylex x s = .ok (t, s')) (ht : t.tokenType ∈ [Tok.tINTEGER, .tFLOAT, .tRATIONAL, .tIMAGINARY])
    (hd : s'.diagnostics = s.diagnostics) :
    t.tokenValue = slice bs t.loc.begin t.loc.stop ∨
    (t.loc.stop = bs.length ∧ bs[bs.length - 1]? ∈ [some (asc 'e'), some (asc 'E')] ∧ t.tokenValue = slice bs t.loc.begin (t.loc.stop - 1)) ∨
    (bs[t.loc.begin]? = some (asc '+') ∧ bs[t.loc.begin + 1]? = some (asc '0') ∧
      (∃ c ∈ ascs "xXbBdDoO_0123456789", bs[t.loc.begin + 2]? = some c) ∧ t.tokenValue = ascs "0+" ++ slice bs (t.loc.begin + 2) t.loc.stop) := by
  have hi := Lexer.Driven.inv ha.inv h
  rcases Lexer.yylex_num (x := x) hi.inv hi.bytes t s' e (by simpa using ht) hd with h | ⟨h1, _, h2, h3⟩ | ⟨h1, h2, ⟨c, h3, h4⟩, h5⟩
  · exact .inl h
  · exact .inr (.inl ⟨h1, by rcases h2 with h | h <;> simp [h], h3⟩)
  · exact .inr (.inr ⟨h1, h2, ⟨c, h4, h3⟩, h5⟩)
end

/-- Types, values and locations of the tokens of a source. -/
def valued (src : Bytes) : Res (List (Tok × Bytes × Nat × Nat)) := do
  let s ← Lexer.new "(eval)" src none
  let (ts, _) ← Lexer.tokenizeUntilEof asciiExt (64 * src.length + 1) s
  return ts.map fun t => (t.tokenType, t.tokenValue, t.loc.begin, t.loc.stop)

/-- How many diagnostics the lexer has for a source. -/
def reports (src : Bytes) : Res Nat := do
  let s ← Lexer.new "(eval)" src none
  let (_, s) ← Lexer.tokenizeUntilEof asciiExt (64 * src.length + 1) s
  return s.diagnostics.length

/-- The literals of the theorem above include the following. -/
example : Literal .integer (ascs "1_234") ∧ Literal .imaginary (ascs "0x1Fri") ∧ Literal .float (ascs "0.5e-1_0") ∧
    Literal .rational (ascs "3.14r") ∧ Literal .integer (ascs "0o17") ∧ Literal .integer (ascs "0_17") := by
  have d : ∀ c : UInt8, c ∈ ascs "0123456789" → Dec c := fun _ h => h
  have o : ∀ c : UInt8, c ∈ ascs "01234567" → Oct c := fun _ h => h
  have x : ∀ c : UInt8, c ∈ ascs "0123456789abcdefABCDEF" → Hex c := fun _ h => h
  refine ⟨?_, ?_, ?_, ?_, ?_, ?_⟩
  · exact .decimal (.integer (w := ascs "1_234") (.nonzero (d _ (by decide)) (by decide)
      (.sep (d _ (by decide)) (.digit (d _ (by decide)) (.digit (d _ (by decide)) .nil)))) .none)
  · exact .based (w := ascs "0x1F") (.hex (.inl rfl) (.mk (x _ (by decide)) (.digit (x _ (by decide)) .nil))) .ri
  · exact .decimal (.float (w := ascs "0") (f := ascs ".5e-1_0") .zero
      (.pointExp (v := ascs "5") (s := ascs "-") (w := ascs "1_0") (.mk (d _ (by decide)) .nil) (.inl rfl) (.inr (.inr rfl))
        (.mk (d _ (by decide)) (.sep (d _ (by decide)) .nil))) .none (by simp))
  · exact .decimal (.float (w := ascs "3") (f := ascs ".14") (.nonzero (d _ (by decide)) (by decide) .nil)
      (.point (.mk (d _ (by decide)) (.digit (d _ (by decide)) .nil))) .r (by simp))
  · exact .based (w := ascs "0o17") (.oct (.inl rfl) (.mk (o _ (by decide)) (.digit (o _ (by decide)) .nil))) .none
  · exact .based (w := ascs "0_17") (.zero (by decide) (.sep (o _ (by decide)) (.digit (o _ (by decide)) .nil))) .none

/-- A use of the theorem above: an imaginary hexadecimal literal after blanks. -/
example : ∃ s0 s', Lexer.new "(eval)" (ascs "  0x1Fri\n") none = .ok s0 ∧
    Lexer.yylex asciiExt s0 = .ok (⟨.tIMAGINARY, ascs "0x1Fri", ⟨2, 8⟩⟩, s') ∧ s'.diagnostics = [] := by
  obtain ⟨s0, ha⟩ := admissible_of_small "(eval)" (ascs "  0x1Fri\n") (by decide)
  have hs : (Lexer.new "(eval)" (ascs "  0x1Fri\n") none).toOption.map (fun s => (s.buffer.eofp, s.buffer.nextline, s.buffer.pcur, s.buffer.pend,
      s.strterm.isNone, s.diagnostics.length)) = some (false, 0, 0, 9, true, 0) := by decide +kernel
  rw [ha.start] at hs
  simp only [Except.toOption, Option.map_some, Option.some.injEq, Prod.mk.injEq] at hs
  obtain ⟨h1, h2, h3, h4, h5, h6⟩ := hs
  have hx : ∀ c : UInt8, c ∈ ascs "0123456789abcdefABCDEF" → Hex c := fun _ h => h
  obtain ⟨s', e, hq⟩ := C28_literals_read (x := asciiExt) (blanks := ascs "  ") (w := ascs "0x1Fri") (p := 0) ha .start (by simpa using h5)
    (.based (w := ascs "0x1F") (.hex (.inl rfl) (.mk (hx _ (by decide)) (.digit (hx _ (by decide)) .nil))) .ri) (by decide)
    ⟨h1, .inl ⟨h2, h3, by omega⟩⟩ (by decide) (.inr ⟨10, by decide, ⟨by decide, by decide⟩, by decide⟩)
  exact ⟨s0, s', ha.start, e, by rw [hq]; exact List.length_eq_zero_iff.1 h6⟩

/-- A use of `C28_values_partial`: a signed float, a use of the third exception and of the second. -/
example : (valued (ascs "+1.5e3") = .ok [(.tFLOAT, ascs "+1.5e3", 0, 6)] ∧ reports (ascs "+1.5e3") = .ok 0) ∧
    slice (ascs "+1.5e3") 0 6 = ascs "+1.5e3" ∧ (ascs "+0x1F")[2]? = some (asc 'x') ∧
    valued (ascs "+0x1F") = .ok [(.tINTEGER, ascs "0+" ++ slice (ascs "+0x1F") 2 5, 0, 5)] := by
  refine ⟨⟨?_, ?_⟩, ?_, ?_, ?_⟩ <;> decide +kernel

/-- **C28**, two exceptions: the sign of a literal with a base prefix gets into the middle of its value, and an `e` at the end of the
input is dropped without a word: it is part of the token but not of the value. -/
theorem C28_negation :
    (valued (ascs "+0x1F") = .ok [(.tINTEGER, ascs "0+x1F", 0, 5)] ∧ reports (ascs "+0x1F") = .ok 0) ∧
    (valued (ascs "+017") = .ok [(.tINTEGER, ascs "0+17", 0, 4)] ∧ reports (ascs "+017") = .ok 0) ∧
    (valued (ascs "1e") = .ok [(.tINTEGER, ascs "1", 0, 2)] ∧ reports (ascs "1e") = .ok 0) := by
  refine ⟨⟨?_, ?_⟩, ⟨?_, ?_⟩, ?_, ?_⟩ <;> decide +kernel

end Verif.Props
