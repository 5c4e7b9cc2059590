import Verif.Spec.Number
/-! Specification of the text of literals without interpolation (`'...'`, `%q`, `%w`, `%i`, `%s`, `:'...'`), as described in Ruby's manual. -/
namespace Verif.QuoteSpec

/-- White space separates the words of a list. -/
def Space (c : UInt8) : Prop := c ∈ ascs " \t\n\r" ∨ c = 11 ∨ c = 12
instance (c : UInt8) : Decidable (Space c) := by unfold Space; infer_instance

/-- Put bytes in front of the value. -/
def add (v : Bytes) : Option (Bytes × Nat × Bytes) → Option (Bytes × Nat × Bytes) := Option.map fun r => (v ++ r.1, r.2)

/-- The text of a literal that ends with `close`; `opener` is the opening bracket if the literal is delimited by brackets, `depth`
counts the brackets that are open, `words` says that white space separates words. The result is the value, the depth and the text from
the character which ends the content; nothing if the text ends before. A backslash in front of a backslash, of a delimiter and
in front of white space in word lists is dropped, every other one stays. -/
def content (close : UInt8) (opener : Option UInt8) (words : Bool) : (depth : Nat) → Bytes → Option (Bytes × Nat × Bytes)
  | _, [] => none
  | depth, c :: text =>
    if some c = opener then add [c] (content close opener words (depth + 1) text)
    else if c = close then
      if depth = 0 then some ([], 0, c :: text) else add [c] (content close opener words (depth - 1) text)
    else if c = asc '\\' then
      match text with
      | [] => none
      | d :: text =>
        if d = asc '\\' ∨ d = close ∨ some d = opener ∨ (words = true ∧ Space d) then add [d] (content close opener words depth text)
        else add [asc '\\', d] (content close opener words depth text)
    else if words = true ∧ Space c then some ([], depth, c :: text)
    else add [c] (content close opener words depth text)

/-- Every character with a backslash in front of it is an ASCII character. -/
def AsciiEscapes : Bytes → Prop
  | [] => True
  | c :: text =>
    if c = asc '\\' then
      match text with
      | [] => True
      | d :: text => d < 128 ∧ AsciiEscapes text
    else AsciiEscapes text

/-- The closing delimiter that goes with an opening one. -/
def closeOf (d : UInt8) : UInt8 :=
  if d = asc '(' then asc ')' else if d = asc '[' then asc ']' else if d = asc '{' then asc '}' else if d = asc '<' then asc '>' else d

/-- Brackets nest. -/
def openerOf (d : UInt8) : Option UInt8 := if d ∈ ascs "([{<" then some d else none

/-- Delimiters of percent literals: any ASCII punctuation but the backslash. -/
def Delimiter (d : UInt8) : Prop := d ∈ ascs "!\"#$%&'()*+,-./:;<=>?@[]^_`{|}~"
instance (d : UInt8) : Decidable (Delimiter d) := by unfold Delimiter; infer_instance

/-- Writing a value between single quotes. -/
def quote (v : Bytes) : Bytes := v.flatMap fun c => if c = asc '\\' ∨ c = asc '\'' then [asc '\\', c] else [c]

example : content (asc '\'') none false 0 (ascs "it\\'s \\n\\\\' x") = some (ascs "it's \\n\\", 0, ascs "' x") := by decide +kernel
example : content (asc ')') (some (asc '(')) true 0 (ascs "a(b)\\ c d)") = some (ascs "a(b) c", 0, ascs " d)") := by decide +kernel

/-- The words of a list and the text after it: words are separated by white space, the depth of brackets is counted across words. -/
inductive Words (close : UInt8) (opener : Option UInt8) : (depth : Nat) → Bytes → List Bytes → Bytes → Prop
  | stop {sp rest : Bytes} : (∀ c ∈ sp, Space c) → Words close opener 0 (sp ++ close :: rest) [] rest
  | word {depth depth' : Nat} {sp text v rest stop : Bytes} {c : UInt8} {vs : List Bytes} : (∀ c ∈ sp, Space c) → ¬ Space c →
      ¬ (c = close ∧ depth = 0) → content close opener true depth (c :: text) = some (v, depth', rest) →
      Words close opener depth' rest vs stop → Words close opener depth (sp ++ c :: text) (v :: vs) stop

example : Words (asc ')') (some (asc '(')) 0 (ascs " a\\ b (c d)) x") [ascs "a b", ascs "(c", ascs "d)"] (ascs " x") := by
  refine .word (sp := ascs " ") (c := asc 'a') (text := ascs "\\ b (c d)) x") (depth' := 0) (rest := ascs " (c d)) x") ?_ ?_ ?_ ?_ ?_ <;> try decide +kernel
  refine .word (sp := ascs " ") (c := asc '(') (text := ascs "c d)) x") (depth' := 1) (rest := ascs " d)) x") ?_ ?_ ?_ ?_ ?_ <;> try decide +kernel
  refine .word (sp := ascs " ") (c := asc 'd') (text := ascs ")) x") (depth' := 0) (rest := ascs ") x") ?_ ?_ ?_ ?_ ?_ <;> try decide +kernel
  exact .stop (sp := []) (by simp)

theorem content_cons (close : UInt8) (opener : Option UInt8) (words : Bool) (depth : Nat) (c : UInt8) (text : Bytes) :
    content close opener words depth (c :: text) =
      if some c = opener then add [c] (content close opener words (depth + 1) text)
      else if c = close then
        if depth = 0 then some ([], 0, c :: text) else add [c] (content close opener words (depth - 1) text)
      else if c = asc '\\' then
        match text with
        | [] => none
        | d :: text =>
          if d = asc '\\' ∨ d = close ∨ some d = opener ∨ (words = true ∧ Space d) then add [d] (content close opener words depth text)
          else add [asc '\\', d] (content close opener words depth text)
      else if words = true ∧ Space c then some ([], depth, c :: text)
      else add [c] (content close opener words depth text) := by
  cases text <;> simp only [content, add, Option.map_none]

theorem AsciiEscapes.tail {c : UInt8} {w : Bytes} (h : AsciiEscapes (c :: w)) (hc : c ≠ asc '\\') : AsciiEscapes w := by
  cases w with
  | nil => trivial
  | cons d w => rw [AsciiEscapes, if_neg hc] at h; exact h

theorem AsciiEscapes.escape {d : UInt8} {w : Bytes} (h : AsciiEscapes (asc '\\' :: d :: w)) : d < 128 ∧ AsciiEscapes w := by
  rw [AsciiEscapes, if_pos rfl] at h; exact h

theorem AsciiEscapes.cons {c : UInt8} {w : Bytes} (h : AsciiEscapes w) (hc : c ≠ asc '\\') : AsciiEscapes (c :: w) := by
  cases w with
  | nil => simp [AsciiEscapes]
  | cons d w => rw [AsciiEscapes, if_neg hc]; exact h

theorem AsciiEscapes.escaped {d : UInt8} {w : Bytes} (h : AsciiEscapes w) (hd : d < 128) : AsciiEscapes (asc '\\' :: d :: w) := by
  rw [AsciiEscapes, if_pos rfl]; exact ⟨hd, h⟩

theorem quote_escapes (v : Bytes) : AsciiEscapes (quote v) := by
  induction v with
  | nil => trivial
  | cons c v ih =>
    have e : quote (c :: v) = (if c = asc '\\' ∨ c = asc '\'' then [asc '\\', c] else [c]) ++ quote v := by simp [quote]
    rw [e]
    split
    · rename_i h
      exact ih.escaped (by rcases h with rfl | rfl <;> decide)
    · rename_i h
      exact ih.cons (fun e => h (.inl e))

/-- Quoting loses nothing. -/
theorem content_quote (v rest : Bytes) : content (asc '\'') none false 0 (quote v ++ asc '\'' :: rest) = some (v, 0, asc '\'' :: rest) := by
  have hne : ¬ (asc '\\' = asc '\'') := by decide
  induction v with
  | nil =>
    show content (asc '\'') none false 0 (asc '\'' :: rest) = _
    rw [content_cons, if_neg (by simp), if_pos rfl, if_pos rfl]
  | cons c v ih =>
    have e : quote (c :: v) = (if c = asc '\\' ∨ c = asc '\'' then [asc '\\', c] else [c]) ++ quote v := by simp [quote]
    rw [e]
    split
    · rename_i h
      simp only [List.cons_append, List.nil_append]
      rw [content_cons, if_neg (by simp), if_neg hne, if_pos rfl]
      simp only []
      rw [if_pos (by rcases h with h | h <;> simp [h]), ih]
      simp [add]
    · rename_i h
      simp only [not_or] at h
      simp only [List.cons_append, List.nil_append]
      rw [content_cons, if_neg (by simp), if_neg h.2, if_neg h.1, if_neg (by simp), ih]
      simp [add]

end Verif.QuoteSpec
