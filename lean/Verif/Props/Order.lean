import Verif.Lemmas.LexOrder
import Verif.Props.Read
import Verif.Props.Locations
/-!
C56: without here documents the tokens come in the order of the source, so that the locations in the syntax trees nest (C48).
-/
namespace Verif.Props
open Spec Grammar Verif.Builder

/-! ### From tokens in order to a placed tree -/

theorem string_starts : ∀ ρ ∈ rules, ρ.lhs = NT.string1 ∨ ρ.lhs = NT.xstring →
    ∃ l, syms ρ.rhs = some (.t .tSTRING_BEG :: l) ∨ syms ρ.rhs = some (.t .tXSTRING_BEG :: l) := by
  have h : ∀ ρ ∈ rules, (ρ.lhs = NT.string1 ∨ ρ.lhs = NT.xstring) →
      (syms ρ.rhs).bind List.head? = some (.t .tSTRING_BEG) ∨ (syms ρ.rhs).bind List.head? = some (.t .tXSTRING_BEG) := by decide +kernel
  intro ρ hρ hl
  cases hs : syms ρ.rhs with
  | none => have := h ρ hρ hl; rw [hs] at this; rcases this with h | h <;> cases h
  | some l =>
    cases l with
    | nil => have := h ρ hρ hl; rw [hs] at this; rcases this with h | h <;> cases h
    | cons y l =>
      refine ⟨l, ?_⟩
      have := h ρ hρ hl
      rw [hs] at this
      simpa using this

/-- A here document is opened by a token that says so. -/
theorem opens_here {r : Nat} {kids : List TTree} (hw : (TTree.node r kids).shape.wf = true) (h : opensHeredoc r kids = true) :
    ∃ t ∈ (TTree.node r kids).yield, OpensHere t := by
  unfold opensHeredoc at h
  split at h
  · rename_i t ks
    rw [Bool.and_eq_true, beq_iff_eq] at h
    obtain ⟨h1, h2⟩ := h
    cases hr : rules[r]? with
    | none => rw [hr] at h1; cases h1
    | some ρ =>
      rw [hr] at h1
      simp only [Option.any_some, Bool.or_eq_true, beq_iff_eq] at h1
      obtain ⟨l, h3⟩ := string_starts ρ (List.mem_of_getElem? hr) h1
      rw [TTree.shape, Tree.wf, hr, shapeL, TTree.shape, rootsL, Tree.root] at hw
      simp only [Bool.and_eq_true, decide_eq_true_eq] at hw
      refine ⟨t, by simp [TTree.yield, yieldL], ?_, h2⟩
      rcases h3 with h3 | h3 <;> (rw [h3] at hw; simp at hw; simp [hw.1.1.symm])
  · cases h

theorem split_point {y z : List Token} {a b : Nat} (hab : a ≤ b) (hy : ∀ t ∈ y, t.loc.stop ≤ b) (hz : ∀ u ∈ z, a ≤ u.loc.begin)
    (h : ∀ t ∈ y, ∀ u ∈ z, t.loc.stop ≤ u.loc.begin) : ∃ m, a ≤ m ∧ m ≤ b ∧ (∀ t ∈ y, t.loc.stop ≤ m) ∧ ∀ u ∈ z, m ≤ u.loc.begin := by
  induction y with
  | nil => exact ⟨a, Nat.le_refl _, hab, nofun, hz⟩
  | cons t y ih =>
    obtain ⟨m, h1, h2, h3, h4⟩ := ih (fun t ht => hy t (List.mem_cons_of_mem _ ht)) fun t ht => h t (List.mem_cons_of_mem _ ht)
    refine ⟨max m t.loc.stop, by omega, by have := hy t (by simp); omega, fun u hu => ?_, fun u hu => ?_⟩
    · rcases List.mem_cons.1 hu with rfl | hu
      · omega
      · have := h3 u hu; omega
    · have := h4 u hu; have := h t (by simp) u hu; omega

mutual
theorem placed_of_order : ∀ (t : TTree) {a b : Nat}, t.shape.wf = true → (∀ x ∈ t.yield, ¬ OpensHere x) →
    t.yield.Pairwise (fun x y => x.loc.stop ≤ y.loc.begin) → (∀ x ∈ t.yield, x.loc.begin + minSize x.tokenType ≤ x.loc.stop) →
    a ≤ b → (∀ x ∈ t.yield, a ≤ x.loc.begin ∧ x.loc.stop ≤ b) → Placed t a b
  | .leaf t, a, b, _, _, _, hs, _, hb => by
    rw [Placed]
    have h1 := hs t (by simp [TTree.yield])
    have h2 := hb t (by simp [TTree.yield])
    exact ⟨h2.1, h1, h2.2⟩
  | .node r kids, a, b, hw, hh, ho, hs, hab, hb => by
    rw [Placed, if_neg]
    · rw [TTree.yield] at hh ho hs hb
      refine placedL_of_order kids ?_ hh ho hs hab hb
      rw [TTree.shape, Tree.wf] at hw
      split at hw
      · cases hw
      · rw [Bool.and_eq_true] at hw; exact hw.2
    · intro h
      obtain ⟨t, h1, h2⟩ := opens_here hw h
      exact hh t h1 h2
theorem placedL_of_order : ∀ (ts : List TTree) {a b : Nat}, wfL (shapeL ts) = true → (∀ x ∈ yieldL ts, ¬ OpensHere x) →
    (yieldL ts).Pairwise (fun x y => x.loc.stop ≤ y.loc.begin) → (∀ x ∈ yieldL ts, x.loc.begin + minSize x.tokenType ≤ x.loc.stop) →
    a ≤ b → (∀ x ∈ yieldL ts, a ≤ x.loc.begin ∧ x.loc.stop ≤ b) → placedL ts a b
  | [], a, b, _, _, _, _, hab, _ => by rw [placedL]; exact hab
  | t :: ts, a, b, hw, hh, ho, hs, hab, hb => by
    rw [shapeL, wfL, Bool.and_eq_true] at hw
    rw [yieldL] at hh ho hs hb
    rw [List.pairwise_append] at ho
    obtain ⟨m, h1, h2, h3, h4⟩ := split_point hab (fun x hx => (hb x (List.mem_append_left _ hx)).2)
      (fun x hx => (hb x (List.mem_append_right _ hx)).1) ho.2.2
    rw [placedL]
    exact ⟨m, placed_of_order t hw.1 (fun x hx => hh x (List.mem_append_left _ hx)) ho.1 (fun x hx => hs x (List.mem_append_left _ hx)) h1
        fun x hx => ⟨(hb x (List.mem_append_left _ hx)).1, h3 x hx⟩,
      placedL_of_order ts hw.2 (fun x hx => hh x (List.mem_append_right _ hx)) ho.2.1 (fun x hx => hs x (List.mem_append_right _ hx)) h2
        fun x hx => ⟨h4 x hx, (hb x (List.mem_append_right _ hx)).2⟩⟩
end

section
variable {name : String} {bs : Bytes} {dec : Option DecoderFn} {s0 : Lexer} {x : Ext} {ts : List Token} {s : Lexer} {held : List StrTerm}

/-- **C56** (partial). Whatever the parser does between tokens, the tokens of a source without here documents come in the order of the
source: each lies within it, does not begin before an earlier one begins, and begins at or after its end. The one exception is the
newline of the last line end, which may be given twice. Missing: tokens with here documents, whose text comes before the rest of the
line they start in (`C56_negation_heredoc`), and the end-of-input token. -/
theorem C56_source_order_partial (ha : Admissible name bs dec s0) (h : Paced x s0 ts s held) (hh : ∀ t ∈ ts, ¬ OpensHere t) :
    ts.Pairwise (Before bs) ∧ ∀ t ∈ ts, t.loc.begin ≤ t.loc.stop ∧ t.loc.stop ≤ bs.length :=
  let h := Lexer.Paced.ord ha.inv (Lexer.new_ord ha.start) h hh
  ⟨h.1.order, h.2⟩

/-- **C56**, from bytes to trees: the condition of C48, that the tokens of the derivation are placed in order, holds of the tokens of
the lexer when there are no here documents, nothing follows the newline token of the last line end, and no `?x` literal and no end of a
regular expression is empty (the lexer makes such tokens only together with an error, see `C56_negation_regexp`). So all locations
in the syntax tree lie within the source and nest. -/
theorem C56_locations_nest_partial (ha : Admissible name bs dec s0) (hn : bs.length + 1 < 2 ^ 31) (h : Paced x s0 ts s held)
    (hh : ∀ t ∈ ts, ¬ OpensHere t) (ext : BldExt) (t : TTree) (hw : t.shape.wf = true) (hr : t.shape.root = some (.n NT.program))
    (hy : t.yield.Sublist ts) (hl : t.yield.Pairwise fun a _ => ¬ (a.tokenType = .tNL ∧ LastLineEnd bs a.loc.begin))
    (hs : ∀ a ∈ t.yield, a.tokenType = .tREGEXP_END ∨ a.tokenType = .tCHAR → a.loc.begin < a.loc.stop)
    (vs : List Atom) (hv : Evals ext t vs) :
    vs = [.onode none] ∨ ∃ n, vs = [.onode (some n)] ∧ Located Node.marks n ∧ Loc.Within n.expression ⟨0, bs.length⟩ := by
  obtain ⟨h1, h2⟩ := C56_source_order_partial ha h hh
  refine C48_program ext t 0 bs.length hw hr (placed_of_order t hw (fun x hx => hh x (hy.subset hx)) ?_ ?_ (Nat.zero_le _) ?_) vs hv
  · refine ((h1.sublist hy).and hl).imp ?_
    rintro a b ⟨⟨-, h3⟩, h4⟩
    exact h3.resolve_right h4
  · intro a ha'
    obtain ⟨h3, h4⟩ := C55_label_sizes ha hn h.driven a (hy.subset ha')
    have h5 := hs a ha'
    have h6 := (h2 a (hy.subset ha')).1
    unfold minSize
    split
    · rename_i e; exact h3 e
    · rename_i e; exact h5 (.inl e)
    · rename_i e; exact h5 (.inr e)
    · rename_i e; exact h4 e
    · exact h6
  · exact fun a ha' => ⟨Nat.zero_le _, (h2 a (hy.subset ha')).2⟩
end

/-! ### Examples -/

/-- The tokens of `a = 1⏎{x: /b/i}⏎`. -/
def orderToks : List Token :=
  [⟨.tIDENTIFIER, ascs "a", ⟨0, 1⟩⟩, ⟨.tEQL, ascs "=", ⟨2, 3⟩⟩, ⟨.tINTEGER, ascs "1", ⟨4, 5⟩⟩, ⟨.tNL, ascs "\n", ⟨5, 6⟩⟩,
   ⟨.tLBRACE, ascs "{", ⟨6, 7⟩⟩, ⟨.tLABEL, ascs "x", ⟨7, 9⟩⟩, ⟨.tREGEXP_BEG, ascs "/", ⟨10, 11⟩⟩, ⟨.tSTRING_CONTENT, ascs "b", ⟨11, 12⟩⟩,
   ⟨.tREGEXP_END, ascs "/i", ⟨12, 14⟩⟩, ⟨.tRCURLY, ascs "}", ⟨14, 15⟩⟩, ⟨.tNL, ascs "\n", ⟨15, 16⟩⟩]
/-- Their tree. -/
def orderTree : TTree :=
  .node 0 [.node 1 [.node 4 [.node 3 [.node 6 [.node 34 [.node 57 [.node 203 [.node 109 [.node 601 [tk .tIDENTIFIER "a" 0 1]],
  tk .tEQL "=" 2 3, .node 261 [.node 249 [.node 292 [.node 548 [.node 592 [.node 594 [tk .tINTEGER "1" 4 5]]]]]]]]]]], .node
  727 [.node 726 [tk .tNL "\n" 5 6]], .node 6 [.node 34 [.node 57 [.node 249 [.node 310 [tk .tLBRACE "{" 6 7, .node 693 [.node
  694 [.node 697 [tk .tLABEL "x" 7 9, .node 256 [.node 249 [.node 295 [.node 556 [tk .tREGEXP_BEG "/" 10 11, .node 576 [.node
  575 [], .node 577 [tk .tSTRING_CONTENT "b" 11 12]], tk .tREGEXP_END "/i" 12 14]]]]]], .node 722 []], tk .tRCURLY "}" 14
  15]]]]]], .node 716 [.node 727 [.node 726 [tk .tNL "\n" 15 16]]]]]

instance (t : Token) : Decidable (OpensHere t) := inferInstanceAs (Decidable (_ ∧ _))
instance (bs : Bytes) (p : Nat) : Decidable (LastLineEnd bs p) := inferInstanceAs (Decidable (_ ∨ _))
instance (bs : Bytes) (a b : Token) : Decidable (Before bs a b) := inferInstanceAs (Decidable (_ ∧ _))

theorem order_read : tokensOf (ascs "a = 1\n{x: /b/i}\n") = some orderToks := by decide +kernel
theorem order_plain : ∀ t ∈ orderToks, ¬ OpensHere t := by decide +kernel
example : orderToks.Pairwise (Before (ascs "a = 1\n{x: /b/i}\n")) := by
  obtain ⟨s0, ha, s, h⟩ := tokensOf_paced order_read (by decide +kernel)
  exact (C56_source_order_partial ha h order_plain).1

/-- The tree that is built of them lies in the source. -/
example : ∃ n, built orderTree = some n ∧ Located Node.marks n ∧ Loc.Within n.expression ⟨0, 16⟩ := by
  obtain ⟨s0, ha, s, h⟩ := tokensOf_paced order_read (by decide +kernel)
  obtain ⟨n, hn, -⟩ := exists_of_any (o := built orderTree) (p := fun _ => true) (by decide +kernel)
  have hy : orderTree.yield = orderToks := by decide +kernel
  rcases C56_locations_nest_partial ha (by decide +kernel) h order_plain plainExt orderTree (by decide +kernel) (by decide +kernel) (by rw [hy])
    (by rw [hy]; decide +kernel) (by rw [hy]; decide +kernel) _ (built_evals hn) with h1 | ⟨m, h1, h2⟩
  · cases h1
  · cases h1; exact ⟨n, hn, h2⟩

/-! ### The exceptions are real -/

/-- **C56** fails with here documents: in `p <<A, 1⏎t⏎A⏎` the text comes before the comma. -/
theorem C56_negation_heredoc : ∃ (src : Bytes) (s0 : Lexer) (ts : List Token) (s : Lexer),
    Admissible "(eval)" src none s0 ∧ Paced asciiExt s0 ts s [] ∧ ¬ ts.Pairwise (Before src) := by
  obtain ⟨ts, h1, h2⟩ := exists_of_any (o := tokensOf (ascs "p <<A, 1\nt\nA\n"))
    (p := fun ts => !decide (ts.Pairwise (Before (ascs "p <<A, 1\nt\nA\n")))) (by decide +kernel)
  obtain ⟨s0, ha, s, h⟩ := tokensOf_paced h1 (by decide +kernel)
  exact ⟨_, s0, ts, s, ha, h, by simpa using h2⟩

/-- Tokens of a source where the parser sets the lexer state to that of the end of an expression after the second token. -/
def threeToks (src : Bytes) : Option (List Token) :=
  (Lexer.new "(eval)" src none).toOption.bind fun s0 => (Lexer.yylex asciiExt s0).toOption.bind fun a =>
  (Lexer.yylex asciiExt a.2).toOption.bind fun b => (Lexer.yylex asciiExt { b.2 with lexState := EXPR_END }).toOption.bind fun c =>
  some [a.1, b.1, c.1]

theorem threeToks_paced {src : Bytes} {ts : List Token} (h : threeToks src = some ts) (hs : src.length < 2 ^ 31)
    (hne : ∀ t ∈ ts, t.tokenType ≠ .END_OF_INPUT) : ∃ s0, Admissible "(eval)" src none s0 ∧ ∃ s, Paced asciiExt s0 ts s [] := by
  simp only [threeToks, Option.bind_eq_some_iff] at h
  obtain ⟨s0, h0, ⟨a, s1⟩, h1, ⟨b, s2⟩, h2, ⟨c, s3⟩, h3, h4⟩ := h
  cases h4
  have ok : ∀ {ε α : Type} {x : Except ε α} {y : α}, x.toOption = some y → x = .ok y := by
    intro ε α x y h; cases x <;> cases h; rfl
  have p1 := Paced.token .start (ok h1) (hne a (by simp))
  have p2 := Paced.token p1 (ok h2) (hne b (by simp))
  have p3 := Paced.action (s' := { s2 with lexState := EXPR_END }) (held' := []) p2 ⟨⟨_, _, rfl⟩, rfl, rfl, rfl, rfl, _, .refl _, .refl _⟩ fun _ _ _ => .inr rfl
  exact ⟨s0, ⟨ok h0, hs, by simp⟩, s3, Paced.token p3 (ok h3) (hne c (by simp))⟩

/-- The exception for the last line end is needed: in `a⏎` the newline is given twice if the parser resets the state of the lexer. -/
theorem C56_negation_last_newline : ∃ (src : Bytes) (s0 : Lexer) (ts : List Token) (s : Lexer),
    Admissible "(eval)" src none s0 ∧ Paced asciiExt s0 ts s [] ∧ (∀ t ∈ ts, ¬ OpensHere t) ∧
    ¬ ts.Pairwise fun a b => a.loc.stop ≤ b.loc.begin := by
  obtain ⟨ts, h1, h2⟩ := exists_of_any (o := threeToks (ascs "a\n"))
    (p := fun ts => decide ((∀ t ∈ ts, t.tokenType ≠ .END_OF_INPUT) ∧ (∀ t ∈ ts, ¬ OpensHere t) ∧
      ¬ List.Pairwise (fun a b : Token => a.loc.stop ≤ b.loc.begin) ts)) (by decide +kernel)
  rw [decide_eq_true_eq] at h2
  obtain ⟨s0, ha, s, h⟩ := threeToks_paced h1 (by decide +kernel) h2.1
  exact ⟨_, s0, ts, s, ha, h, h2.2⟩

/-- `/a` -/
def openRegexp : TTree :=
  .node 0 [.node 1 [.node 3 [.node 6 [.node 34 [.node 57 [.node 249 [.node 295 [.node 556 [tk .tREGEXP_BEG "/" 0 1, .node 576
  [.node 575 [], .node 577 [tk .tSTRING_CONTENT "a" 1 2]], tk .tREGEXP_END "" 2 2]]]]]]], .node 715 []]]

/-- The condition on the ends of regular expressions is needed: `/a` is not closed, its end is an empty token, and the tree that is
built has locations that are not proper or outside of the source. -/
theorem C56_negation_regexp : ∃ (src : Bytes) (s0 : Lexer) (ts : List Token) (s : Lexer) (t : TTree) (n : Node),
    Admissible "(eval)" src none s0 ∧ Paced asciiExt s0 ts s [] ∧ (∀ t ∈ ts, ¬ OpensHere t) ∧ t.shape.wf = true ∧
    t.shape.root = some (.n NT.program) ∧ t.yield = ts ∧ Evals plainExt t [.onode (some n)] ∧ ¬ Located Node.marks n := by
  obtain ⟨ts, h1, h2⟩ := exists_of_any (o := tokensOf (ascs "/a")) (p := fun ts => decide (openRegexp.yield = ts)) (by decide +kernel)
  obtain ⟨s0, ha, s, h⟩ := tokensOf_paced h1 (by decide +kernel)
  have hy : openRegexp.yield = ts := by simpa using h2
  obtain ⟨n, hn, hb⟩ := exists_of_any (o := built openRegexp)
    (p := fun n => n.marks.any fun l => !decide (Loc.Within l n.expression)) (by decide +kernel)
  refine ⟨_, s0, ts, s, openRegexp, n, ha, h, ?_, by decide +kernel, by decide +kernel, hy, built_evals hn, ?_⟩
  · rw [← hy]; decide +kernel
  · intro hl
    obtain ⟨l, hl', hll⟩ := List.any_eq_true.1 hb
    cases hl with
    | mk _ _ marked _ _ =>
      have := marked l hl'
      simp [this] at hll

end Verif.Props
