import Verif.Lemmas.ParseSound
import Verif.Props.NoPanic
import Verif.Props.Grammar
/-!
C52, C53: a whole parse, in which actions and builder share their tables.
-/
namespace Verif.Props
open Verif.Grammar Verif.Builder Verif.BuilderSpec

/-! ### C52 -/

/-- `Parser::new` (src/parser/parse.y:6912-6960) and the tables of the builder, which are the same. -/
def atStart : BState := {}

example : atStart.book = St.new := rfl

/-- **C52**. For every derivation of a program: either an action returns `Err(())`, or a function of the builder panics in one of
the calls the derivation asks for (see C53), or the parse is complete. Then it has given at most one tree, which is a value in the
sense of C48–C50, and the tables pass `assert_state_is_final`. -/
theorem C52_parse (ext : BldExt) (dedent : List Atom → Int) (t : TTree) (hw : t.shape.wf = true)
    (hr : t.shape.root = some (.n NT.program)) :
    match t.parse ext dedent atStart with
    | .ok (v, s) => Evals ext t v.atoms ∧ (∃ o, v.atoms = [.onode o]) ∧ s.book.isFinal = true
    | .error .err => True
    | .error (.panic p) => ∃ f xs s, t.Calls ext f xs ∧ (applyFn ext (dedent xs) f xs).run s = .error p
    | .error .badTree => False := by
  have h := parse_fine ext dedent t hw
  simp only [POk, hr] at h
  have h := h atStart (by intro d; cases d <;> decide +kernel)
  rcases hp : t.parse ext dedent atStart with e | ⟨v, s⟩ <;> rw [hp] at h
  · rcases e with _ | p | _
    · trivial
    · obtain ⟨f, xs, s, h1, -, h2⟩ := h
      exact ⟨f, xs, s, h1, h2⟩
    · exact h
  · obtain ⟨h1, h2, h3, h4, h5⟩ := h
    refine ⟨h1, ?_, ?_⟩
    · have h2 : some [AK.onode] = some (v.atoms.map Atom.ak) := by rw [← h2]; decide +kernel
      have h2 := Option.some.inj h2
      rcases hv : v.atoms with _ | ⟨a, l⟩
      · rw [hv] at h2; cases h2
      · rw [hv] at h2
        simp only [List.map_cons, List.cons.injEq] at h2
        obtain rfl := List.map_eq_nil_iff.mp h2.2.symm
        cases a <;> first | (simp [Atom.ak] at h2; done) | exact ⟨_, rfl⟩
    · have hz : ∀ d, d ≠ .env → stk d s.book = stk d St.new := by
        intro d hd
        apply track_nil
        have := h3 d
        cases d <;> first | exact absurd rfl hd | exact this
      have harg := hz .arg (by simp)
      have hnum := hz .num (by simp)
      have hpv := hz .pv (by simp)
      have hpk := hz .pk (by simp)
      have henv : s.book.env.stack = [] := by
        obtain ⟨_, pre, hp, he⟩ := h3 .env
        have hp : pre.length = 1 := hp
        obtain ⟨c, rfl⟩ := List.length_eq_one_iff.mp hp
        have : (stk .env St.new).drop ((stackP NT.program).1.get .env) = [] := by decide +kernel
        rw [show stk .env atStart.book = stk .env St.new from rfl, this] at he
        simpa [stk] using congrArg List.tail he
      have hctx : s.book.ctx.isEmpty = true := by
        apply ctx_zero
        · intro f
          exact program_false f _ (h4 f) (by
            have : ∀ f, atStart.context.get f = false := by intro f; cases f <;> decide +kernel
            exact this f)
        · intro j hj
          show s.context.value.getLsbD j = false
          rw [h5 j hj]
          simp [atStart, Context.empty]
      simp only [stk, St.new, CurArgStack.new, NumStack.new, VarStack.new, List.map_nil, List.map_eq_nil_iff] at harg hnum hpv hpk
      simp [St.isFinal, StaticEnv.isEmpty, CurArgStack.isEmpty, NumStack.isEmpty, VarStack.isEmpty, henv, harg, hnum, hpv, hpk, hctx]

/-- `a = 1; m { |b| a + b + c }` -/
def blockVars : TTree :=
  .node 0 [.node 1 [.node 4 [.node 3 [.node 6 [.node 34 [.node 57 [.node 203 [.node 109 [.node 601 [tk .tIDENTIFIER "a" 0 1]],
  tk .tEQL "=" 2 3, .node 261 [.node 249 [.node 292 [.node 548 [.node 592 [.node 594 [tk .tINTEGER "1" 4 5]]]]]]]]]]], .node
  727 [.node 725 [tk .tSEMI ";" 5 6]], .node 6 [.node 34 [.node 57 [.node 249 [.node 318 [.node 68 [.node 701 [tk .tIDENTIFIER
  "m" 7 8]], .node 435 [tk .tLCURLY "{" 9 10, .node 437 [.node 407 [.node 409 [tk .tPIPE "|" 11 12, .node 398 [.node 658 [.node
  656 [.node 655 [.node 654 [tk .tIDENTIFIER "b" 12 13]]]], .node 389 []], .node 410 [.node 717 []], tk .tPIPE "|" 13 14]],
  .node 11 [.node 13 [.node 16 [.node 34 [.node 57 [.node 218 [.node 249 [.node 300 [.node 613 [.node 601 [tk .tIDENTIFIER "a"
  15 16]]]], tk .tPLUS "+" 17 18, .node 218 [.node 249 [.node 300 [.node 613 [.node 601 [tk .tIDENTIFIER "b" 19 20]]]], tk
  .tPLUS "+" 21 22, .node 249 [.node 300 [.node 613 [.node 601 [tk .tIDENTIFIER "c" 23 24]]]]]]]]]], .node 715 []]], tk
  .tRCURLY "}" 25 26]]]]]]], .node 715 []]]

/-- The variables of a tree, and the calls without receiver and arguments. -/
def namesIn : Nat → Node → List (Bool × Text)
  | 0, _ => []
  | k + 1, n => (match n with
    | .Lvar x _ => [(true, x)]
    | .Send none x [] _ _ _ _ _ _ => [(false, x)]
    | _ => []) ++ n.children.flatMap (namesIn k)

/-- The parse is complete: `a` and `b` are variables in the block, `c` is a call, and afterwards `a` is declared and `b` is not. -/
example : (blockVars.shape.wf && blockVars.shape.root == some (.n NT.program) && (match blockVars.parse plainExt (fun _ => 0) atStart with
    | .ok (⟨[.onode (some n)], _⟩, s) => decide (namesIn 9 n = [(false, lit "m"), (true, lit "a"), (true, lit "b"), (false, lit "c")]) &&
      decide (s.staticEnv = ⟨[lit "a"], []⟩) && s.book.isFinal
    | _ => false)) = true := by decide +kernel

/-! ### C53 -/

mutual
/-- The functions of the builder an expression mentions. -/
def exMentions (f : BFn) : Ex → Bool
  | .fld _ _ => false
  | .call g es => g == f || exsMention f es
def exsMention (f : BFn) : List Ex → Bool
  | [] => false
  | e :: es => exMentions f e || exsMention f es
end
def outMentions (f : BFn) : ValOut → Bool
  | .copy _ => false
  | .mk es => exsMention f es
mutual
theorem calls_mentions {ext : BldExt} {V : List (List Atom)} {f : BFn} {xs : List Atom} : ∀ {e : Ex}, e.Calls ext V f xs → exMentions f e = true
  | .fld _ _, h => by rw [Ex.Calls] at h; exact h.elim
  | .call g es, h => by
    rw [Ex.Calls] at h
    rw [exMentions, Bool.or_eq_true]
    rcases h with ⟨rfl, -⟩ | h
    · exact .inl (by simp)
    · exact .inr (callsL_mentions h)
theorem callsL_mentions {ext : BldExt} {V : List (List Atom)} {f : BFn} {xs : List Atom} : ∀ {es : List Ex}, exCalls ext V es f xs → exsMention f es = true
  | [], h => by rw [exCalls] at h; exact h.elim
  | e :: es, h => by
    rw [exCalls] at h
    rw [exsMention, Bool.or_eq_true]
    exact h.imp calls_mentions callsL_mentions
end

/-- Only `p_kw: p_kw_label` calls `match_label`. -/
theorem matchLabel_only : ∀ r (o : Nat × ValOut), outs[r]? = some o → outMentions .matchLabel o.2 = true → r = 504 := by
  have h : (outs.zipIdx.all fun p => !outMentions .matchLabel p.1.2 || p.2 == 504) = true := by decide +kernel
  intro r o ho hm
  have := List.all_eq_true.mp h (o, r) (by rw [List.mem_zipIdx_iff_getElem?]; exact ho)
  simpa [hm] using this
/-- The two kinds of labels. -/
theorem label_rules : ∀ r (ρ : Rule), rules[r]? = some ρ → ρ.lhs = NT.p_kw_label → r = 505 ∨ r = 506 := by
  have h : (rules.zipIdx.all fun p => p.1.lhs != NT.p_kw_label || p.2 == 505 || p.2 == 506) = true := by decide +kernel
  intro r ρ ho hm
  have := List.all_eq_true.mp h (ρ, r) (by rw [List.mem_zipIdx_iff_getElem?]; exact ho)
  simpa [hm] using this

/-- The action is one call with the first part of `$1`. -/
def isOnly (f : BFn) : ValOut → Bool
  | .mk [.call g [.fld 1 0]] => g == f
  | _ => false
theorem only_call {f : BFn} {r : Nat} {o : Nat × ValOut} (ho : outs[r]? = some o)
    (h : (outs[r]?).any (fun o => isOnly f o.2) = true) : o.2 = .mk [.call f [.fld 1 0]] := by
  rw [ho] at h
  simp only [Option.any_some] at h
  unfold isOnly at h
  split at h
  · rename_i he; rw [he, beq_iff_eq.1 h]
  · cases h

mutual
theorem quoted_key {ext : BldExt} {a : Token} {l : List Node} {e : Token} : ∀ (t : TTree), t.shape.wf = true →
    t.Calls ext .matchLabel [.label (.QuotedLabel a l e)] → t.quotedKey = true
  | .leaf _, _, h => by rw [TTree.Calls] at h; exact h.elim
  | .node r kids, hw, h => by
    rw [TTree.quotedKey, Bool.or_eq_true]
    rw [TTree.shape] at hw
    unfold Tree.wf at hw
    rw [TTree.Calls] at h
    rcases h with ⟨ρ, o, hρ, ho, -, vss, hv, hc⟩ | h
    · left
      simp only [hρ, Bool.and_eq_true, decide_eq_true_eq] at hw
      have hm : outMentions .matchLabel o.2 = true := by
        cases ho2 : o.2 with
        | copy n => rw [ho2] at hc; exact hc.elim
        | mk es => rw [ho2] at hc; exact callsL_mentions hc
      obtain rfl := matchLabel_only r o ho hm
      have hc : (ValOut.mk [.call .matchLabel [.fld 1 0]]).Calls ext (slots ρ.rhs vss) .matchLabel [.label (.QuotedLabel a l e)] := by
        rw [← only_call (f := .matchLabel) ho (by decide +kernel)]; exact hc
      have h504 : rules[504]? = some ⟨NT.p_kw, 5124, [.n NT.p_kw_label, .a ⟨5125, false, [(.PKwLabel, 1)], [.touch [.env, .pv]], [.new .Node]⟩]⟩ := by
        decide +kernel
      obtain rfl := Option.some.inj (hρ.symm.trans h504)
      obtain ⟨hroots, -⟩ := hw
      simp only [syms, Option.map_some, List.map_cons, List.map_nil, Option.some.injEq] at hroots
      cases kids with
      | nil => simp [shapeL, rootsL] at hroots
      | cons k ks =>
        rw [shapeL, rootsL, List.cons.injEq] at hroots
        rw [evalsL] at hv
        obtain ⟨v, vs, rfl, hv, -⟩ := hv
        simp only [ValOut.Calls, exCalls, Ex.Calls, or_false, true_and, exGives, Ex.Gives, slots] at hc
        obtain ⟨y, ys, hx, hy, -⟩ := hc
        cases hx
        have hy : v[0]? = some (.label (.QuotedLabel a l e)) := by simpa using hy
        rw [hρ]
        simp only [List.any_cons, Option.any_some, Bool.and_eq_true, Bool.or_eq_true]
        refine ⟨by decide +kernel, .inl ?_⟩
        cases k with
        | leaf t => simp [TTree.shape, Tree.root] at hroots
        | node r' ks' =>
          rcases h' : rules[r']? with _ | ρ'
          · simp [TTree.shape, Tree.root, h'] at hroots
          · simp only [TTree.shape, Tree.root, h', Option.map_some, Option.some.injEq, Sym.n.injEq] at hroots
            rcases label_rules r' ρ' h' hroots.1.symm with rfl | rfl
            · rw [Evals] at hv
              obtain ⟨ρ2, o2, -, ho2, -, vss, -, hg⟩ := hv
              rw [only_call (f := .plainLabel) ho2 (by decide +kernel)] at hg
              simp only [ValOut.Gives, exGives, Ex.Gives] at hg
              obtain ⟨z, zs, rfl, ⟨xs, -, i, s, s', hr⟩, -⟩ := hg
              cases hy
              dsimp only [applyFn, withT] at hr
              split at hr <;> cases hr
            · show ((rules[506]?).any _) = true
              decide +kernel
    · right
      split at hw
      · cases hw
      · rw [Bool.and_eq_true] at hw
        exact quoted_keyL kids hw.2 h
theorem quoted_keyL {ext : BldExt} {a : Token} {l : List Node} {e : Token} : ∀ (ts : List TTree), wfL (shapeL ts) = true →
    callsL ext ts .matchLabel [.label (.QuotedLabel a l e)] → quotedKeyL ts = true
  | [], _, h => by rw [callsL] at h; exact h.elim
  | t :: ts, hw, h => by
    rw [shapeL, wfL, Bool.and_eq_true] at hw
    rw [callsL] at h
    rw [quotedKeyL, Bool.or_eq_true]
    exact h.imp (quoted_key t hw.1) (quoted_keyL ts hw.2)
end

/-- **C53**, for derivations in which the block of a `block_call` is given to a call (see C49) and no hash pattern has a key
`"..":` without a value: when a parse of a program over well read tokens panics, whatever it declares and however here documents
are dedented, it is for a parameter list in which a name that does not start with an ASCII character occurs twice. -/
theorem C53_parse_no_panic_partial (ext : BldExt) (dedent : List Atom → Int) (h0 : ∀ xs, 0 ≤ dedent xs)
    (hd : ∀ f xs, BFn.Dedents (dedent xs) f xs) (t : TTree) (hw : t.shape.wf = true) (hr : t.shape.root = some (.n NT.program))
    (hb : t.blocksFit = true) (ht : t.AllTok WellRead) (hk : t.quotedKey = false) (p : Panic)
    (hp : t.parse ext dedent atStart = .error (.panic p)) :
    p = .index ∧ ∃ b l e, t.Calls ext .args [.otok b, .nodes l, .otok e] ∧ panicsAt [] (paramsOfList l) := by
  have h := parse_fine ext dedent t hw
  simp only [POk, hr] at h
  have h := h atStart (by intro d; cases d <;> decide +kernel)
  rw [hp] at h
  obtain ⟨f, xs, s, hc, hs, hp⟩ := h
  rcases C51_no_panic_partial ext t hw hb ht f xs hc (fun hf a l e hx => by
      subst hf hx
      rw [quoted_key t hw hc] at hk; cases hk) (dedent xs) (h0 xs)
    (hd f xs) s hs with ⟨r, s', h, -⟩ | ⟨rfl, h', b, l, e, rfl, h⟩
  · rw [hp] at h; cases h
  · rw [hp] at h'; cases h'
    exact ⟨rfl, b, l, e, hc, h⟩

example : blockVars.blocksFit = true ∧ blockVars.AllTok WellRead ∧ blockVars.quotedKey = false :=
  ⟨by decide +kernel, allTokB_iff (p := wellReadB) (fun _ => wellReadB_iff) _ (by decide +kernel), by decide +kernel⟩

/-- `def m(é, é); end` -/
def twiceTree : TTree :=
  let e (b : Nat) : TTree := .leaf ⟨.tIDENTIFIER, [0xC3, 0xA9], ⟨b, b + 2⟩⟩
  .node 0 [.node 1 [.node 3 [.node 6 [.node 34 [.node 57 [.node 249 [.node 333 [.node 59 [.node 349 [tk .kDEF "def" 0 3], .node
  58 [.node 123 [tk .tIDENTIFIER "m" 4 5]]], .node 624 [.node 623 [tk .tLPAREN2 "(" 5 6, .node 639 [.node 659 [.node 658 [.node
  656 [.node 655 [.node 654 [e 6]]]], tk .tCOMMA "," 8 9, .node 656 [.node 655 [.node 654 [e 10]]]], .node 632 []], .node 719
  [.node 717 [], tk .tRPAREN ")" 12 13]]], .node 10 [.node 11 [.node 12
  [.node 729 []], .node 716 [.node 727 [.node 725 [tk .tSEMI ";" 13 14]]]], .node 540 [.node 729 []], .node 547 [.node 729
  []]], .node 357 [tk .kEND "end" 15 18]]]]]]], .node 715 []]]

/-- How a parse ends, when it does not complete. -/
def stopOf (t : TTree) : Option Stop := match t.parse plainExt (fun _ => 0) atStart with
  | .ok _ => none
  | .error e => some e
theorem stopOf_parse {t : TTree} {e : Stop} (h : stopOf t = some e) : t.parse plainExt (fun _ => 0) atStart = .error e := by
  unfold stopOf at h
  split at h
  · cases h
  · rename_i he; cases h; exact he

/-- Each of the conditions of C53 is needed; these are programs for which the parser panics, from its initial state:
`foo 1, if x; bar (a) {} do end; end`, `case 1; in {"#{''}":}; end` and `def m(é, é); end`. -/
theorem C53_programs_that_panic :
    (∃ t : TTree, t.shape.wf = true ∧ t.shape.root = some (.n NT.program) ∧ t.AllTok WellRead ∧ t.quotedKey = false ∧
      t.blocksFit = false ∧ t.parse plainExt (fun _ => 0) atStart = .error (.panic .unreachable)) ∧
    (∃ t : TTree, t.shape.wf = true ∧ t.shape.root = some (.n NT.program) ∧ t.AllTok WellRead ∧ t.blocksFit = true ∧
      t.quotedKey = true ∧ t.parse plainExt (fun _ => 0) atStart = .error (.panic .expect)) ∧
    (∃ t : TTree, t.shape.wf = true ∧ t.shape.root = some (.n NT.program) ∧ t.AllTok WellRead ∧ t.blocksFit = true ∧
      t.quotedKey = false ∧ t.parse plainExt (fun _ => 0) atStart = .error (.panic .index)) :=
  ⟨⟨inArgs bracesDo 30, by decide +kernel, by decide +kernel, allTokB_iff (p := wellReadB) (fun _ => wellReadB_iff) _ (by decide +kernel),
      by decide +kernel, by decide +kernel, stopOf_parse (by decide +kernel)⟩,
    ⟨caseIn keyEmpty 20, by decide +kernel, by decide +kernel, allTokB_iff (p := wellReadB) (fun _ => wellReadB_iff) _ (by decide +kernel),
      by decide +kernel, by decide +kernel, stopOf_parse (by decide +kernel)⟩,
    ⟨twiceTree, by decide +kernel, by decide +kernel, allTokB_iff (p := wellReadB) (fun _ => wellReadB_iff) _ (by decide +kernel),
      by decide +kernel, by decide +kernel, stopOf_parse (by decide +kernel)⟩⟩

end Verif.Props
