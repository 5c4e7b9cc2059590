import Verif.Lemmas.CalmFn
import Verif.Props.Shape
import Verif.Props.BuilderChecks
/-!
C51: over every derivation from well read tokens, the functions of the builder do not panic at all, save for parameter lists with
names that do not start with an ASCII character.
-/
namespace Verif.Props
open Verif.Grammar Verif.Builder Verif.BuilderSpec

/-! ### What the kinds of the arguments say -/

theorem hasArgs_of_kinds {n : Node} (h : Has (Shape.calleeK ||| ks [.Yield, .ReturnC, .BreakC, .NextC]) n) : HasArgs n := by
  refine ⟨?_, ?_, ?_⟩
  · rintro as k x rfl rfl
    exact absurd (show Nat.testBit _ NKind.Return.ctorIdx = true from h) (by decide +kernel)
  · rintro as k x rfl rfl
    exact absurd (show Nat.testBit _ NKind.Next.ctorIdx = true from h) (by decide +kernel)
  · rintro as k x rfl rfl
    exact absurd (show Nat.testBit _ NKind.Break.ctorIdx = true from h) (by decide +kernel)

theorem gives_block {as : List Abs} {b : Abs} {xs : List Atom} (h : BFn.gives .block as = some b) (hx : HasL as xs) {n : Node}
    {r : List Atom} (e : xs = .node n :: r) : HasArgs n := by
  have h : polyBlock as = some b := h
  unfold polyBlock at h
  split at h
  · obtain ⟨y, ys, rfl, h1, -⟩ := hasL_cons hx
    cases e
    split at h
    · split at h
      · next hc => exact hasArgs_of_kinds ((h1.1.mono hc).mono (by decide +kernel))
      · split at h
        · next hc => exact hasArgs_of_kinds (h1.1.mono hc)
        · cases h
    · cases h
  · cases h

theorem gives_defined {f : BFn} {as : List Abs} {b : Abs} {xs : List Atom} (hf : f = .keyword .Defined ∨ f = .keywordParen .Defined)
    (h : f.gives as = some b) (hx : HasL as xs) {l : List Node} (hl : .nodes l ∈ xs) : l ≠ [] := by
  rcases hf with rfl | rfl
  · unfold BFn.gives at h
    dsimp only [BFn.mono] at h
    split at h
    · next hle =>
      have hx := hx.le hle
      obtain ⟨y, ys, rfl, h1, hx⟩ := hasL_cons hx
      obtain ⟨z, zs, rfl, h2, hx⟩ := hasL_cons hx
      cases hasL_nil hx
      rcases List.mem_cons.1 hl with rfl | hl
      · exact absurd h1 id
      · cases List.mem_singleton.1 hl; exact h2.2 rfl
    · cases h
  · unfold BFn.gives at h
    dsimp only [BFn.mono] at h
    split at h
    · next hle =>
      have hx := hx.le hle
      obtain ⟨y, ys, rfl, h1, hx⟩ := hasL_cons hx
      obtain ⟨z, zs, rfl, h2, hx⟩ := hasL_cons hx
      obtain ⟨w, ws, rfl, h3, hx⟩ := hasL_cons hx
      obtain ⟨v, vs, rfl, h4, hx⟩ := hasL_cons hx
      cases hasL_nil hx
      simp only [List.mem_cons, List.not_mem_nil, or_false] at hl
      rcases hl with rfl | rfl | rfl | rfl
      · exact absurd h1 id
      · exact absurd h2 id
      · exact h3.2 rfl
      · exact absurd h4 id
    · cases h

/-! ### Parameter lists -/

theorem isParam_of_ok {n : Node} (h : Has Shape.paramK n) (hs : Shaped n) : IsParam n := by
  induction hs with
  | mk n kinds kids _ ih =>
    have hd : ∀ items : List Node, n.fields = Shape.each Shape.destrK items → ∀ m ∈ items, IsParam m := by
      intro items hf m hm
      have hm : (Shape.destrK, m) ∈ n.fields := by rw [hf]; exact List.mem_map.2 ⟨m, hm, rfl⟩
      exact ih _ hm (Has.mono (a := Shape.destrK) (kinds _ hm) (by decide +kernel))
    unfold Shape.paramK at h
    simp only [has_ks, has_nil, or_false] at h
    rcases h with h | h | h | h | h | h | h | h | h | h | h | h
    · obtain ⟨_, _, rfl⟩ := kind_Arg h; exact .arg
    · obtain ⟨_, _, _, _, _, rfl⟩ := kind_Optarg h; exact .optarg
    · obtain ⟨_, _, _, _, rfl⟩ := kind_Restarg h; exact .restarg
    · obtain ⟨_, _, _, rfl⟩ := kind_Kwarg h; exact .kwarg
    · obtain ⟨_, _, _, _, rfl⟩ := kind_Kwoptarg h; exact .kwoptarg
    · obtain ⟨_, _, _, _, rfl⟩ := kind_Kwrestarg h; exact .kwrestarg
    · obtain ⟨_, _, rfl⟩ := kind_Kwnilarg h; exact .kwnil
    · obtain ⟨_, _, _, _, rfl⟩ := kind_Blockarg h; exact .blockarg
    · obtain ⟨_, _, rfl⟩ := kind_Shadowarg h; exact .shadowarg
    · obtain ⟨_, rfl⟩ := kind_ForwardArg h; exact .forward
    · obtain ⟨items, _, _, _, rfl, hi⟩ := kind_MlhsP h
      exact .mlhs (hd items (by rw [Node.fields, hi, if_pos rfl]))
    · obtain ⟨items, _, _, _, rfl⟩ := kind_Procarg0 h
      exact .procarg0 (hd items rfl)

theorem gives_args {as : List Abs} {b : Abs} {xs : List Atom} (h : BFn.gives .args as = some b) (hx : HasL as xs) :
    ∃ a l e, xs = [.otok a, .nodes l, .otok e] ∧ ∀ n ∈ l, IsParam n := by
  have h : polyArgs as = some b := h
  unfold polyArgs at h
  split at h
  · obtain ⟨y, ys, rfl, h1, hx⟩ := hasL_cons hx
    obtain ⟨z, zs, rfl, h2, hx⟩ := hasL_cons hx
    obtain ⟨w, ws, rfl, h3, hx⟩ := hasL_cons hx
    cases hasL_nil hx
    obtain ⟨a, rfl, -⟩ := has_otok h1
    obtain ⟨l, rfl, h2⟩ := has_nodes h2
    obtain ⟨e, rfl, -⟩ := has_otok h3
    split at h
    · next hs =>
      rw [Bool.and_eq_true] at hs
      exact ⟨a, l, e, rfl, fun n hn => isParam_of_ok ((h2.1 n hn).1.mono hs.1) (h2.1 n hn).2⟩
    · cases h
  · cases h

theorem args_calm_ascii {p : Bool} {b e : Option Token} {l : List Node} (h : ∀ n ∈ l, IsParam n) (hp : ¬ panicsAt [] (paramsOfList l)) :
    BldM.Calm False p (Builder.args b l e) Any := by
  unfold Builder.args
  refine BldM.calm_bind (P := Any) (fun s hs => ?_) fun _ _ => ?_
  · obtain ⟨map, hr⟩ := (C32_duplicate_args_partial l h s).1 hp
    rw [show checkDuplicateArgs l [] s = _ from hr]
    exact ⟨trivial, hs⟩
  · refine BldM.calm_bind validateNoForwardArgAfterRestarg_calm fun _ _ => ?_
    calm

/-! ### Examples -/

/-- `WellRead`, as a check. -/
def wellReadB (t : Token) : Bool :=
  (!t.tokenType.isWord || Utf8.valid t.tokenValue) &&
  (!(t.tokenType == .tIDENTIFIER || t.tokenType == .tLABEL) || !t.tokenValue.isEmpty) &&
  (t.tokenType != .tNTH_REF || t.tokenValue.head?.any (· < 128)) &&
  (t.tokenType != .tLABEL || (1 ≤ t.loc.stop && t.loc.stop < 2 ^ 31)) &&
  (t.tokenType != .tLABEL_END || 2 ≤ t.loc.stop) &&
  (t.tokenType != .tREGEXP_END || (t.loc.begin ≤ t.loc.stop && t.loc.begin + 1 < 2 ^ 31))

theorem wellReadB_iff {t : Token} (h : wellReadB t = true) : WellRead t := by
  simp only [wellReadB, Bool.and_eq_true, Bool.or_eq_true, Bool.not_eq_true', bne_iff_ne, decide_eq_true_eq, ne_eq,
    List.isEmpty_eq_false_iff] at h
  obtain ⟨⟨⟨⟨⟨h1, h2⟩, h3⟩, h4⟩, h5⟩, h6⟩ := h
  refine ⟨fun e => ?_, fun e => ?_, fun e => ?_, fun e => ?_, fun e => ?_, fun e => ?_⟩
  · rcases h1 with h | h
    · rw [e] at h; cases h
    · exact h
  · rcases h2 with h | h
    · rw [Bool.or_eq_false_iff, beq_eq_false_iff_ne, beq_eq_false_iff_ne] at h
      rcases e with e | e
      · exact absurd e h.1
      · exact absurd e h.2
    · exact h
  · rcases h3 with h | h
    · exact absurd e h
    · rcases hv : t.tokenValue with _ | ⟨c, r⟩
      · rw [hv] at h; cases h
      · rw [hv] at h; exact ⟨c, r, rfl, by simpa using h⟩
  · exact h4.resolve_left (fun h => h e)
  · exact h5.resolve_left (fun h => h e)
  · exact h6.resolve_left (fun h => h e)

mutual
/-- All tokens pass a check. -/
def allTokB (p : Token → Bool) : TTree → Bool
  | .leaf t => p t
  | .node _ kids => allTokLB p kids
/-- The same for a list. -/
def allTokLB (p : Token → Bool) : List TTree → Bool
  | [] => true
  | t :: ts => allTokB p t && allTokLB p ts
end
mutual
theorem allTokB_iff {p : Token → Bool} {P : Token → Prop} (hp : ∀ t, p t = true → P t) : ∀ t, allTokB p t = true → t.AllTok P
  | .leaf t, h => by rw [allTokB] at h; rw [TTree.AllTok]; exact hp t h
  | .node _ kids, h => by rw [allTokB] at h; rw [TTree.AllTok]; exact allTokLB_iff hp kids h
theorem allTokLB_iff {p : Token → Bool} {P : Token → Prop} (hp : ∀ t, p t = true → P t) : ∀ ts, allTokLB p ts = true → allTokL P ts
  | [], _ => by rw [allTokL]; trivial
  | t :: ts, h => by
    rw [allTokLB, Bool.and_eq_true] at h
    rw [allTokL]
    exact ⟨allTokB_iff hp t h.1, allTokLB_iff hp ts h.2⟩
end

/-- `case 1; in {..}; end` around the keys of a hash pattern; `k` is where the closing brace is. -/
def caseIn (keys : TTree) (k : Nat) : TTree :=
  .node 0 [.node 1 [.node 3 [.node 6 [.node 34 [.node 57 [.node 249 [.node 328 [.node 345 [tk .kCASE "case" 0 4], .node 61
  [.node 57 [.node 249 [.node 292 [.node 548 [.node 592 [.node 594 [tk .tINTEGER "1" 5 6]]]]]]], .node 716 [.node 727 [.node
  725 [tk .tSEMI ";" 6 7]]], .node 446 [tk .kIN "in" 8 10, .node 449 [.node 452 [.node 458 [.node 460 [.node 462 [.node 478 [tk
  .tLBRACE "{" 11 12, .node 498 [.node 501 [keys]], .node 721 [.node 717 [], tk .tRCURLY "}" k (k + 1)]]]]]]], .node 359 [.node
  725 [tk .tSEMI ";" (k + 1) (k + 2)]], .node 11 [.node 12 [.node 729 []], .node 715 []], .node 447 [.node 366 [.node 729 []]]],
  .node 357 [tk .kEND "end" (k + 3) (k + 6)]]]]]]], .node 715 []]]

/-- `a:` -/
def keyA : TTree := .node 504 [.node 505 [tk .tLABEL "a" 12 14]]
/-- `"#{''}":` -/
def keyEmpty : TTree :=
  .node 504 [.node 506 [tk .tSTRING_BEG "\"" 12 13, .node 572 [.node 571 [], .node 579 [tk .tSTRING_DBEG "#{" 13 15, .node 11
  [.node 13 [.node 16 [.node 34 [.node 57 [.node 249 [.node 293 [.node 550 [.node 552 [.node 554 [tk .tSTRING_BEG "'" 15 16,
  .node 571 [], tk .tSTRING_END "'" 16 17]]]]]]]]], .node 715 []], tk .tSTRING_DEND "}" 17 18]], tk .tLABEL_END "\":" 18 20]]

example : (caseIn keyA 14).shape.wf ∧ (caseIn keyA 14).shape.root = some (.n NT.program) ∧ placeFrom (caseIn keyA 14) 0 = some 20 := by
  decide +kernel
example : (caseIn keyEmpty 20).shape.wf ∧ (caseIn keyEmpty 20).shape.root = some (.n NT.program) ∧
    placeFrom (caseIn keyEmpty 20) 0 = some 26 := by decide +kernel

/-- The arguments of the call of `match_label` that gives the value of a tree, and the tables when it is made. -/
def labelArgs (s : BState) : TTree → Option (List Atom × BState)
  | .leaf _ => none
  | .node r kids =>
    match rules[r]?, outs[r]? with
    | some ρ, some (_, .mk [.call .matchLabel es]) =>
      if ρ.rhs.all (fun i => !i.refuses) then
        (evalL plainExt 0 kids s).bind fun p => exEval plainExt 0 (slots ρ.rhs p.1) es p.2
      else none
    | _, _ => none

theorem labelArgs_calls {t : TTree} {xs : List Atom} {s s' : BState} (h : labelArgs s t = some (xs, s')) :
    t.Calls plainExt .matchLabel xs := by
  unfold labelArgs at h
  split at h
  · cases h
  · split at h
    · rename_i h1 h2
      split at h
      · rename_i h3
        obtain ⟨p, h4, h5⟩ := Option.bind_eq_some_iff.1 h
        rw [TTree.Calls]
        refine .inl ⟨_, _, h1, h2, h3, p.1, evalL_evals _ h4, ?_⟩
        rw [ValOut.Calls, exCalls, Ex.Calls]
        exact .inl (.inl ⟨rfl, exEval_gives _ h5⟩)
      · cases h
    · cases h

/-- The tables inside of a pattern. -/
def inPatternState : BState := { patternVariables := ⟨[[]]⟩, patternHashKeys := ⟨[[]]⟩ }

/-! ### C51 -/

/-- C51, for derivations in which the block of a `block_call` is given to a call: take any derivation tree of any nonterminal over
tokens that are well read. Whatever values the actions below have made, a function called in an action returns, when the tables
it writes to have a level; and then they still have. Only `args` may panic instead, on a parameter list in which a name that does
not start with an ASCII character occurs twice (see `C32_negation`).
Missing: the keys `"a":` of a hash pattern without a value (see `C51_empty_key_panics`). -/
theorem C51_no_panic_partial (ext : BldExt) (t : TTree) (hw : t.shape.wf = true) (hb : t.blocksFit = true) (ht : t.AllTok WellRead)
    (f : BFn) (xs : List Atom) (hc : t.Calls ext f xs) (hm : f = .matchLabel → ∀ a l e, xs ≠ [.label (.QuotedLabel a l e)])
    (indent : Int) (hi : 0 ≤ indent) (hd : f.Dedents indent xs) (s : BState) (hs : Ready f.declares s) :
    (∃ r s', (applyFn ext indent f xs).run s = .ok (r, s') ∧ Ready f.declares s') ∨
    (f = .args ∧ (applyFn ext indent f xs).run s = .error .index ∧ ∃ b l e, xs = [.otok b, .nodes l, .otok e] ∧
      panicsAt [] (paramsOfList l)) := by
  obtain ⟨as, b, h1, h2⟩ := tree_calls t hw hb hc
  have hu := C49_no_unreachable_partial ext t hw hb f xs hc indent hd s
  have := fn_calm (ext := ext) hi (tok_calls t hw ht hc) (fun r e n ex => by subst e; exact gives_block h1 h2 ex)
    (fun e l hl => gives_defined e h1 h2 hl) hm s hs
  rcases hr : (applyFn ext indent f xs).run s with e | ⟨r, s'⟩
  · rw [hr] at this hu
    rcases this with h | ⟨h, h'⟩
    · exact absurd (by rw [h]) hu
    · subst h h'
      obtain ⟨b, l, e, rfl, hl⟩ := gives_args h1 h2
      refine .inr ⟨rfl, rfl, b, l, e, rfl, Classical.byContradiction fun hp => ?_⟩
      have := outM_calm (c := .onode) (args_calm_ascii (b := b) (e := e) hl hp) s hs
      rw [show (outM .onode (Builder.args b l e)).run s = _ from hr] at this
      rcases this with h | h
      · cases h
      · exact h.1
  · rw [hr] at this
    exact .inl ⟨r, s', rfl, this.2⟩

/-- The key `a:` in `case 1; in {a:}; end`. -/
example : ∃ xs, (caseIn keyA 14).Calls plainExt .matchLabel xs ∧
    ∃ r s', (applyFn plainExt 0 .matchLabel xs).run inPatternState = .ok (r, s') ∧ Ready true s' := by
  obtain ⟨⟨xs, s⟩, h, hp⟩ := exists_of_any (o := labelArgs inPatternState keyA) (p := fun p => match p.1 with
    | [.label (.PlainLabel _)] => true
    | _ => false) (by decide +kernel)
  have hc : (caseIn keyA 14).Calls plainExt .matchLabel xs :=
    calls_of_sub (p := [0, 0, 0, 0, 0, 0, 0, 3, 1, 0, 0, 0, 0, 0, 1, 0, 0]) rfl (labelArgs_calls h)
  refine ⟨xs, hc, ?_⟩
  rcases C51_no_panic_partial _ _ (by decide +kernel) (by decide +kernel) (allTokB_iff (p := wellReadB) (fun _ => wellReadB_iff) _ (by decide +kernel)) _ _ hc
    (by rintro - a l e rfl; cases hp) 0 (by decide) trivial inPatternState ⟨fun _ => ⟨nofun, nofun⟩, nofun⟩ with h | ⟨h, -⟩
  · exact h
  · cases h

/-- C51 fails for such keys: `case 1; in {"#{''}":}; end`. The key is the text inside of `#{}`, which is empty, and
`check_lvar_name` expects it not to be. -/
theorem C51_empty_key_panics : ∃ (t : TTree) (xs : List Atom), t.shape.wf = true ∧ t.shape.root = some (.n NT.program) ∧
    t.blocksFit = true ∧ t.AllTok WellRead ∧ t.Calls plainExt .matchLabel xs ∧ Ready true inPatternState ∧
    (applyFn plainExt 0 .matchLabel xs).run inPatternState = .error .expect := by
  obtain ⟨⟨xs, s⟩, h, hp⟩ := exists_of_any (o := labelArgs inPatternState keyEmpty) (p := fun p =>
    match (applyFn plainExt 0 .matchLabel p.1).run inPatternState with
    | .error .expect => true
    | _ => false) (by decide +kernel)
  refine ⟨caseIn keyEmpty 20, xs, by decide +kernel, by decide +kernel, by decide +kernel,
    allTokB_iff (p := wellReadB) (fun _ => wellReadB_iff) _ (by decide +kernel),
    calls_of_sub (p := [0, 0, 0, 0, 0, 0, 0, 3, 1, 0, 0, 0, 0, 0, 1, 0, 0]) rfl (labelArgs_calls h), ⟨fun _ => ⟨nofun, nofun⟩, nofun⟩, ?_⟩
  dsimp only at hp
  split at hp
  · assumption
  · cases hp

end Verif.Props
