import Verif.Lemmas.ReadRun
import Verif.Props.Lexing
import Verif.Model.Paced
import Verif.Props.Parse
/-!
C55: every token that the lexer gives to the parser is what its type says (`WellRead`), so that the condition on tokens of C51 and
C53 holds of what the lexer reads.  There is one exception, a label after a lone carriage return.
-/
namespace Verif.Props
open Spec Grammar Verif.Builder Verif.BuilderSpec

section
variable {name : String} {bs : Bytes} {dec : Option DecoderFn} {s0 : Lexer} {x : Ext} {ts : List Token} {s : Lexer} {held : List StrTerm}

/-- **C55.** Every token that the parser was given is well read, whatever it did between tokens: names, operators, numbers and
keywords are UTF-8 (even if the source is not), names are not empty, the references `$1`, `$2`, … start with an ASCII character,
and the positions can be moved as the builder does. The exception is a label that contains a carriage return. -/
theorem C55_tokens_read (ha : Admissible name bs dec s0) (hn : bs.length + 1 < 2 ^ 31) (h : Driven x s0 ts s held) :
    ∀ t ∈ ts, WellRead t ∨ (t.tokenType = .tLABEL ∧ 13 ∈ t.tokenValue ∧ 13 ∈ bs) :=
  fun t ht => ((Lexer.Driven.read ha.inv (Lexer.new_lit ha.start) hn h).2 t ht).1

/-- **C55**, for sources without carriage returns: no exception. -/
theorem C55_no_carriage_return (ha : Admissible name bs dec s0) (hn : bs.length + 1 < 2 ^ 31) (h : Driven x s0 ts s held) (hc : 13 ∉ bs) :
    ∀ t ∈ ts, WellRead t :=
  fun t ht => (C55_tokens_read ha hn h t ht).resolve_right fun h => hc h.2.2

/-- **C55**, sizes: the text of a label includes at least its colon, and that of the end of a quoted label the quote and the colon. -/
theorem C55_label_sizes (ha : Admissible name bs dec s0) (hn : bs.length + 1 < 2 ^ 31) (h : Driven x s0 ts s held) :
    ∀ t ∈ ts, (t.tokenType = .tLABEL → t.loc.begin + 1 ≤ t.loc.stop) ∧ (t.tokenType = .tLABEL_END → t.loc.begin + 2 ≤ t.loc.stop) :=
  fun t ht => ((Lexer.Driven.read ha.inv (Lexer.new_lit ha.start) hn h).2 t ht).2

mutual
theorem allTok_of {P Q : Token → Prop} (h : ∀ t, P t → Q t) : ∀ t : TTree, t.AllTok P → t.AllTok Q
  | .leaf t => by rw [TTree.AllTok, TTree.AllTok]; exact h t
  | .node _ kids => by rw [TTree.AllTok, TTree.AllTok]; exact allTokL_of h kids
theorem allTokL_of {P Q : Token → Prop} (h : ∀ t, P t → Q t) : ∀ ts : List TTree, allTokL P ts → allTokL Q ts
  | [] => by simp [allTokL]
  | t :: ts => by rw [allTokL, allTokL]; exact fun h' => ⟨allTok_of h t h'.1, allTokL_of h ts h'.2⟩
end

mutual
theorem allTok_yield {P : Token → Prop} : ∀ t : TTree, t.AllTok P ↔ ∀ x ∈ t.yield, P x
  | .leaf t => by simp [TTree.AllTok, TTree.yield]
  | .node _ kids => by rw [TTree.AllTok, TTree.yield]; exact allTokL_yield kids
theorem allTokL_yield {P : Token → Prop} : ∀ ts : List TTree, allTokL P ts ↔ ∀ x ∈ yieldL ts, P x
  | [] => by simp [allTokL, yieldL]
  | t :: ts => by
    rw [allTokL, yieldL, allTok_yield t, allTokL_yield ts]
    simp only [List.mem_append]
    exact ⟨fun h x hx => hx.elim (h.1 x) (h.2 x), fun h => ⟨fun x hx => h x (.inl hx), fun x hx => h x (.inr hx)⟩⟩
end

/-- **C55**, from bytes to trees: when the parse of a program over tokens that the lexer read panics, one of the things happened
that C53 lists — the block of a `block_call` is not given to a call, a hash pattern has a key `"..":` without a value, or the names
of a parameter list are as in C32 — or a label contains a carriage return. -/
theorem C55_parse_no_panic_partial (ha : Admissible name bs dec s0) (hn : bs.length + 1 < 2 ^ 31) (h : Driven x s0 ts s held)
    (ext : BldExt) (dedent : List Atom → Int) (h0 : ∀ xs, 0 ≤ dedent xs) (hd : ∀ f xs, BFn.Dedents (dedent xs) f xs)
    (t : TTree) (hw : t.shape.wf = true) (hr : t.shape.root = some (.n NT.program)) (hy : ∀ a ∈ t.yield, a ∈ ts)
    (hb : t.blocksFit = true) (hk : t.quotedKey = false) (hc : ∀ a ∈ t.yield, a.tokenType = .tLABEL → 13 ∉ a.tokenValue) (p : Panic)
    (hp : t.parse ext dedent atStart = .error (.panic p)) :
    p = .index ∧ ∃ b l e, t.Calls ext .args [.otok b, .nodes l, .otok e] ∧ panicsAt [] (paramsOfList l) :=
  C53_parse_no_panic_partial ext dedent h0 hd t hw hr hb
    ((allTok_yield t).2 fun a h1 => (C55_tokens_read ha hn h a (hy a h1)).resolve_right fun h2 => hc a h1 h2.1 h2.2.1) hk p hp
end

/-! ### Examples, and the exception -/

theorem paced_tokenize {x : Ext} {s0 : Lexer} : ∀ {n : Nat} {ts : List Token} {s : Lexer} {held : List StrTerm} {r : List Token} {s' : Lexer},
    Paced x s0 ts s held → Lexer.tokenizeUntilEof x n s = .ok (r, s') → ∃ s1, Paced x s0 (ts ++ r) s1 held := by
  intro n
  induction n with
  | zero => intro ts s held r s' _ e; cases e
  | succ n ih =>
    intro ts s held r s' h e
    unfold Lexer.tokenizeUntilEof at e
    change StateT.bind _ _ _ = _ at e
    simp only [StateT.bind, Bind.bind, Except.bind] at e
    cases h1 : Lexer.yylex x s with
    | error p => rw [h1] at e; cases e
    | ok q =>
      obtain ⟨t, s1⟩ := q
      rw [h1] at e
      dsimp only at e
      split at e
      · cases e; exact ⟨s, by simpa using h⟩
      · rename_i hne
        simp only [StateT.bind, Bind.bind, Except.bind] at e
        cases h2 : Lexer.tokenizeUntilEof x n s1 with
        | error p => rw [h2] at e; cases e
        | ok q =>
          obtain ⟨r1, s2⟩ := q
          rw [h2] at e; cases e
          obtain ⟨s3, h3⟩ := ih (.token h h1 hne) h2
          exact ⟨s3, by simpa using h3⟩

/-- The tokens of a source, when the parser does nothing between tokens. -/
def tokensOf (src : Bytes) : Option (List Token) := (do
  let s ← Lexer.new "(eval)" src none
  let (ts, _) ← Lexer.tokenizeUntilEof asciiExt (64 * src.length + 1) s
  return ts : Res _).toOption

/-- They are read in a run. -/
theorem tokensOf_paced {src : Bytes} {ts : List Token} (h : tokensOf src = some ts) (hs : src.length < 2 ^ 31) :
    ∃ s0, Admissible "(eval)" src none s0 ∧ ∃ s, Paced asciiExt s0 ts s [] := by
  unfold tokensOf at h
  cases h1 : Lexer.new "(eval)" src none with
  | error p => rw [h1] at h; cases h
  | ok s0 =>
    rw [h1] at h
    refine ⟨s0, ⟨h1, hs, by simp⟩, ?_⟩
    simp only [Bind.bind, Except.bind] at h
    cases h2 : Lexer.tokenizeUntilEof asciiExt (64 * src.length + 1) s0 with
    | error p => rw [h2] at h; cases h
    | ok q =>
      obtain ⟨r, s'⟩ := q
      rw [h2] at h; cases h
      obtain ⟨s1, h3⟩ := paced_tokenize .start h2
      exact ⟨s1, h3⟩
theorem tokensOf_driven {src : Bytes} {ts : List Token} (h : tokensOf src = some ts) (hs : src.length < 2 ^ 31) :
    ∃ s0, Admissible "(eval)" src none s0 ∧ ∃ s, Driven asciiExt s0 ts s [] :=
  let ⟨s0, h0, s, h1⟩ := tokensOf_paced h hs
  ⟨s0, h0, s, h1.driven⟩

/-- `def m(x = "…", …: 1); end` over the given tokens. -/
def withLabel (ts : List Token) : TTree :=
  let t (i : Nat) : Token := ts[i]?.getD ⟨.tNL, [10], ⟨0, 1⟩⟩
  .node 0 [.node 1 [.node 3 [.node 6 [.node 34 [.node 57 [.node 249 [.node 333 [.node 59 [.node 349 [.leaf (t 0)], .node 58
  [.node 123 [.leaf (t 1)]]], .node 624 [.node 623 [.leaf (t 2), .node 642 [.node 678 [.node 674 [.node 655 [.node 654 [.leaf
  (t 3)]], .node 383 [.leaf (t 4)], .node 256 [.node 249 [.node 293 [.node 550 [.node 552 [.node 554 [.leaf (t 5), .node 572
  [.node 571 [], .node 577 [.leaf (t 6)]], .leaf (t 7)]]]]]]]], .node 631 [.leaf (t 8), .node 627 [.node 667 [.node 661 [.node
  660 [.leaf (t 9)], .node 256 [.node 249 [.node 292 [.node 548 [.node 592 [.node 594 [.leaf (t 10)]]]]]]]], .node 689 [.node
  729 []]]]], .node 719 [.node 717 [], .leaf (t 11)]]], .node 10 [.node 11 [.node 12 [.node 729 []], .node 716 [.node 727
  [.node 725 [.leaf (t 12)]]]], .node 540 [.node 729 []], .node 547 [.node 729 []]], .node 357 [.leaf (t 13)]]]]]]], .node 715
  []]]

/-- The tokens of `def m(x = "b\xff", a: 1); end` with a carriage return before `a`. -/
def crToks : List Token :=
  [⟨.kDEF, [100, 101, 102], ⟨0, 3⟩⟩, ⟨.tIDENTIFIER, [109], ⟨4, 5⟩⟩, ⟨.tLPAREN2, [40], ⟨5, 6⟩⟩, ⟨.tIDENTIFIER, [120], ⟨6, 7⟩⟩,
    ⟨.tEQL, [61], ⟨8, 9⟩⟩, ⟨.tSTRING_BEG, [34], ⟨10, 11⟩⟩, ⟨.tSTRING_CONTENT, [98, 255], ⟨11, 16⟩⟩, ⟨.tSTRING_END, [34], ⟨16, 17⟩⟩,
    ⟨.tCOMMA, [44], ⟨17, 18⟩⟩, ⟨.tLABEL, [98, 255, 13, 97], ⟨19, 22⟩⟩, ⟨.tINTEGER, [49], ⟨23, 24⟩⟩, ⟨.tRPAREN, [41], ⟨24, 25⟩⟩,
    ⟨.tSEMI, [59], ⟨25, 26⟩⟩, ⟨.kEND, [101, 110, 100], ⟨27, 30⟩⟩]
/-- The tokens of `def m(x = "b\xff", a: 1); end`. -/
def noCrToks : List Token :=
  [⟨.kDEF, [100, 101, 102], ⟨0, 3⟩⟩, ⟨.tIDENTIFIER, [109], ⟨4, 5⟩⟩, ⟨.tLPAREN2, [40], ⟨5, 6⟩⟩, ⟨.tIDENTIFIER, [120], ⟨6, 7⟩⟩,
    ⟨.tEQL, [61], ⟨8, 9⟩⟩, ⟨.tSTRING_BEG, [34], ⟨10, 11⟩⟩, ⟨.tSTRING_CONTENT, [98, 255], ⟨11, 16⟩⟩, ⟨.tSTRING_END, [34], ⟨16, 17⟩⟩,
    ⟨.tCOMMA, [44], ⟨17, 18⟩⟩, ⟨.tLABEL, [97], ⟨19, 21⟩⟩, ⟨.tINTEGER, [49], ⟨22, 23⟩⟩, ⟨.tRPAREN, [41], ⟨23, 24⟩⟩,
    ⟨.tSEMI, [59], ⟨24, 25⟩⟩, ⟨.kEND, [101, 110, 100], ⟨26, 29⟩⟩]

/-- The `std` functions restricted to ASCII, no regular expressions. -/
def asciiBld : BldExt := ⟨fun n => 97 ≤ n ∧ n ≤ 122, fun n => (97 ≤ n ∧ n ≤ 122) ∨ (65 ≤ n ∧ n ≤ 90) ∨ (48 ≤ n ∧ n ≤ 57), none⟩
/-- How a parse ends, when it does not complete. -/
def endOf (t : TTree) : Option Stop := match t.parse asciiBld (fun _ => 0) atStart with
  | .ok _ => none
  | .error e => some e
theorem endOf_parse {t : TTree} {e : Stop} (h : endOf t = some e) : t.parse asciiBld (fun _ => 0) atStart = .error e := by
  unfold endOf at h
  split at h
  · cases h
  · rename_i he; cases h; exact he

/-- The conditions of the theorems hold of the run of the lexer over `def m(x = "b\xff", a: 1); end` and the derivation of its tokens. -/
example : tokensOf (ascs "def m(x = \"b\\xff\", a: 1); end") = some noCrToks ∧
    (withLabel noCrToks).yield = noCrToks ∧ (withLabel noCrToks).shape.wf = true ∧
    (withLabel noCrToks).shape.root = some (.n NT.program) ∧ (withLabel noCrToks).blocksFit = true ∧
    (withLabel noCrToks).quotedKey = false ∧ endOf (withLabel noCrToks) = none ∧
    (∀ a ∈ (withLabel noCrToks).yield, a.tokenType = .tLABEL → 13 ∉ a.tokenValue) := by decide +kernel
example : ∃ s0, Admissible "(eval)" (ascs "def m(x = \"b\\xff\", a: 1); end") none s0 ∧ ∃ s, Driven asciiExt s0 noCrToks s [] :=
  tokensOf_driven (by decide +kernel) (by decide +kernel)

/-- **C55**, the exception is real: after a lone carriage return the text of the previous token is still in the token buffer
(src/lexer/main.rs:220-228), so in `def m(x = "b\xff", a: 1); end` with a carriage return before `a` the label is `b`, the byte 255, the
carriage return and `a`; this is not UTF-8, and the parser panics. -/
theorem C55_negation_carriage_return :
    ∃ src : Bytes, Utf8.valid src = true ∧ src.length + 1 < 2 ^ 31 ∧ (∃ s0, Admissible "(eval)" src none s0 ∧ ∃ s, Driven asciiExt s0 crToks s []) ∧
    ∃ t : TTree, t.yield = crToks ∧ t.shape.wf = true ∧ t.shape.root = some (.n NT.program) ∧ t.blocksFit = true ∧ t.quotedKey = false ∧
      t.parse asciiBld (fun _ => 0) atStart = .error (.panic .expect) :=
  ⟨ascs "def m(x = \"b\\xff\", " ++ [13] ++ ascs "a: 1); end", by decide +kernel, by decide +kernel, tokensOf_driven (by decide +kernel) (by decide +kernel),
    withLabel crToks, by decide +kernel, by decide +kernel, by decide +kernel, by decide +kernel, by decide +kernel,
    endOf_parse (by decide +kernel)⟩

/-- The tokens of `x = $1; {"a": $12, b: /x/i, @é => 2r}`: the theorem is about names with other than ASCII characters, references,
labels and the ends of literals. -/
example : (tokensOf (ascs "x = $1; {\"a\": $12, b: /x/i, @" ++ [0xC3, 0xA9] ++ ascs " => 2r}")).map
    (·.map fun t => (t.tokenType, t.tokenValue)) =
    some [(.tIDENTIFIER, [120]), (.tEQL, [61]), (.tNTH_REF, [36, 49]), (.tSEMI, [59]), (.tLBRACE, [123]), (.tSTRING_BEG, [34]),
      (.tSTRING_CONTENT, [97]), (.tLABEL_END, [34, 58]), (.tNTH_REF, [36, 49, 50]), (.tCOMMA, [44]), (.tLABEL, [98]),
      (.tREGEXP_BEG, [47]), (.tSTRING_CONTENT, [120]), (.tREGEXP_END, [47, 105]), (.tCOMMA, [44]), (.tIVAR, [64, 195, 169]),
      (.tASSOC, [61, 62]), (.tRATIONAL, [50, 114]), (.tRCURLY, [125])] := by decide +kernel

end Verif.Props
