import Verif.Lemmas.ScopeNodes
import Verif.Lemmas.ScopeTable
/-!
The functions that bind, look up or delimit.
-/
namespace Verif
open Builder Grammar ScopeSpec

/-- A token, or an optional one. -/
def Grammar.Atom.isTok : Atom → Bool
  | .tok _ | .otok _ => true
  | _ => false

section
variable (ext : BldExt) (x : Text)
/-- What an atom binds; a token stands for the name in it. -/
def BA : Atom → Prop
  | .tok t => cloneValue t = x
  | .otok t => ∃ u, t = some u ∧ cloneValue u = x
  | a => Some_ (Binds ext x) a.trees
/-- What it mentions. -/
abbrev UA (a : Atom) : Prop := Some_ (Uses ext x) a.trees
/-- A definition in it that mentions what it does not bind. -/
abbrev LA (a : Atom) : Prop := Some_ (Loose ext x) a.trees
end

/-- An assignment without its value. -/
def bareNode : Node → Prop
  | .Cvasgn _ v _ _ _ | .Ivasgn _ v _ _ _ | .Gvasgn _ v _ _ _ | .Lvasgn _ v _ _ _ => v = none
  | .Casgn _ _ v _ _ _ _ => v = none
  | .IndexAsgn _ _ v _ _ _ _ => v = none
  | _ => True
/-- The same for an atom. -/
def bareAtom (a : Atom) : Prop := ∀ n, a = .node n → bareNode n
/-- A block can be attached without loss. -/
def fitsNode : Node → Prop
  | .Return as _ _ | .Next as _ _ | .Break as _ _ => as.length ≤ 1
  | _ => True
/-- The same for an atom. -/
def fitsAtom (a : Atom) : Prop := ∀ n, a = .node n → fitsNode n

variable {ext ext' : BldExt} {x : Text} {indent : Int}

theorem BA_node {a : Atom} (h : a.isTok = false) : BA ext x a ↔ Some_ (Binds ext x) a.trees := by
  cases a <;> first | rfl | cases h
theorem tok_trees {a : Atom} (h : a.isTok = true) : a.trees = [] := by
  cases a <;> first | rfl | cases h

theorem value_gives {t : Token} : Res.Yields (value t) fun n => n = cloneValue t := by
  unfold value
  split
  · exact Res.safe_ok rfl
  · skip1
theorem maybeValue_gives {t : Option Token} : Res.Yields (maybeValue t) fun n => n = t.map cloneValue := by
  cases t with
  | none => exact Res.safe_ok rfl
  | some t =>
    refine Res.safe_bind value_gives fun n hn => Res.safe_pure ?_
    rw [hn]; rfl
theorem checkedName_gives {t : Option Token} : BldR.Yields (checkedName t) fun p => p.1 = t.map cloneValue := by
  cases t with
  | none => exact BldR.safe_pure rfl
  | some t =>
    refine BldR.safe_bind (BldR.safe_lift (BldM.safe_liftR value_gives)) fun n hn => ?_
    skip1
    exact BldR.safe_pure (by rw [hn]; rfl)

/-- Everything about one result. -/
def Made (ext : BldExt) (x : Text) (a : Atom) (b u l : Prop) : Prop :=
  a.isTok = false ∧ (Some_ (Binds ext x) a.trees ↔ b) ∧ (Some_ (Uses ext x) a.trees ↔ u) ∧ (Some_ (Loose ext x) a.trees ↔ l)

theorem made_node {n : Node} {b u l : Prop} (hb : Binds ext x n ↔ b) (hu : Uses ext x n ↔ u) (hl : Loose ext x n ↔ l) :
    Made ext x (.node n) b u l := by
  refine ⟨rfl, ?_, ?_, ?_⟩ <;> simpa [Atom.trees]

/-- Trees of atoms. -/
abbrev treesOf (xs : List Atom) : List Node := xs.flatMap Atom.trees

macro "flat" : tactic => `(tactic| simp only [treesOf, pick, drop, Atom.trees, List.flatMap_cons, List.flatMap_nil, List.append_nil,
  List.nil_append, some_cons, some_nil, some_append, Option.toList_some, Option.toList_none, or_false, false_or, List.contains_cons,
  List.contains_nil, Bool.or_false, beq_iff_eq, reduceIte, Nat.reduceAdd, Nat.reduceEqDiff, Nat.reduceBEq, Bool.false_eq_true, Bool.or_true, Bool.true_or,
  true_and, false_and, Bool.false_or, or_assoc, reduceCtorEq])

section
variable {f : BFn} {xs : List Atom}

/-- What is known of a result of a function with a scope of its own. -/
def InsideMade (ext : BldExt) (x : Text) (is : List Nat) (static : Bool) (xs : List Atom) (a : Atom) : Prop :=
  Made ext x a (Some_ (Binds ext x) (treesOf (drop is 0 xs)))
    (Some_ (Uses ext x) (treesOf (drop is 0 xs)) ∨ (static = false ∧ Some_ (Uses ext x) (treesOf (pick is 0 xs)) ∧
      ¬ Some_ (Binds ext x) (treesOf (pick is 0 xs))))
    (Some_ (Loose ext x) (treesOf xs) ∨ (static = true ∧ Some_ (Uses ext x) (treesOf (pick is 0 xs)) ∧
      ¬ Some_ (Binds ext x) (treesOf (pick is 0 xs))))

theorem blockNode_made {c : Node} {as : ArgsType} {body : Option Node} :
    (Binds ext x (blockNode c b as body e) ↔ Binds ext x c) ∧
    (Uses ext x (blockNode c b as body e) ↔ Uses ext x c ∨
      ((Some_ (Uses ext x) (Atom.trees (.args as)) ∨ Some_ (Uses ext x) body.toList) ∧
        ¬ (Some_ (Binds ext x) (Atom.trees (.args as)) ∨ Some_ (Binds ext x) body.toList))) ∧
    (Loose ext x (blockNode c b as body e) ↔ Loose ext x c ∨ Some_ (Loose ext x) (Atom.trees (.args as)) ∨ Some_ (Loose ext x) body.toList) := by
  unfold blockNode
  cases as with
  | Args as => simp only [Atom.trees]; nonplain; simp
  | Numargs n =>
    simp only [Atom.trees]; nonplain
    cases body with
    | none => simp [binds_additive.Nil, uses_additive.Nil, loose_additive.Nil]
    | some body => simp
theorem block_made {c : Node} {as : ArgsType} {body : Option Node} (hf : fitsNode c) : BldR.Yields (block c b as body e) fun n =>
    (Binds ext x n ↔ Binds ext x c) ∧
    (Uses ext x n ↔ Uses ext x c ∨
      ((Some_ (Uses ext x) (Atom.trees (.args as)) ∨ Some_ (Uses ext x) body.toList) ∧
        ¬ (Some_ (Binds ext x) (Atom.trees (.args as)) ∨ Some_ (Binds ext x) body.toList))) ∧
    (Loose ext x n ↔ Loose ext x c ∨ Some_ (Loose ext x) (Atom.trees (.args as)) ∨ Some_ (Loose ext x) body.toList) := by
  unfold block
  skip1
  split
  all_goals first
    | exact BldR.safe_pure blockNode_made
    | exact BldR.safe_lift BldM.yields_panic
    | (rename_i as' _ _
       rcases as' with - | ⟨c', - | ⟨c'', as'⟩⟩
       · skips
       · refine BldR.safe_bind (P := fun p => p.1 = [blockNode c' b as body e]) ?_ fun p hp => ?_
         · exact BldR.safe_lift (BldM.safe_liftR (Res.safe_ok rfl))
         · obtain ⟨p1, p2⟩ := p
           subst hp
           refine BldR.safe_pure ?_
           adds binds_additive
           adds uses_additive
           adds loose_additive
           exact blockNode_made
       · exact absurd hf (by simp [fitsNode]))

theorem inside_made (hf : inside f = some (is, static)) (hfit : f = .block → ∀ a ∈ xs.head?, fitsAtom a) :
    BldR.Yields (applyFn ext' indent f xs) (InsideMade ext x is static xs) := by
  cases f <;> simp only [inside, Option.some.injEq, Prod.mk.injEq, reduceCtorEq] at hf <;> obtain ⟨rfl, rfl⟩ := hf
  case block =>
    dsimp only [applyFn, withNTAPT]
    split
    · refine outB_yields ((block_made (ext := ext) (x := x) (hfit rfl _ rfl _ rfl)).imp fun n hn => ?_)
      obtain ⟨h1, h2, h3⟩ := hn
      refine made_node (h1.trans ?_) (h2.trans ?_) (h3.trans ?_) <;> flat
    · exact illTyped_yields
  case lambda =>
    dsimp only [applyFn, withTATPT]
    split
    · refine outB_yields ((block_made (ext := ext) (x := x) (by unfold callLambda; trivial)).imp fun n hn => ?_)
      obtain ⟨h1, h2, h3⟩ := hn
      unfold callLambda at h1 h2 h3
      rw [binds_additive.Lambda] at h1
      rw [uses_additive.Lambda] at h2
      rw [loose_additive.Lambda] at h3
      refine made_node (h1.trans ?_) (h2.trans ?_) (h3.trans ?_) <;> flat
    · exact illTyped_yields
  case defClass =>
    dsimp only [applyFn, withTNOPPT]
    split
    · refine outp_yields ?_
      unfold defClass
      refine made_node (binds_Class.trans ?_) (uses_Class.trans ?_) (loose_Class.trans ?_) <;> flat
      tauto
    · exact illTyped_yields
  case defSclass =>
    dsimp only [applyFn, withTTNPT]
    split
    · refine outp_yields ?_
      unfold defSclass
      refine made_node (binds_SClass.trans ?_) (uses_SClass.trans ?_) (loose_SClass.trans ?_) <;> flat
      tauto
    · exact illTyped_yields
  case defModule =>
    dsimp only [applyFn, withTNPT]
    split
    · refine outp_yields ?_
      unfold defModule
      refine made_node (binds_Module.trans ?_) (uses_Module.trans ?_) (loose_Module.trans ?_) <;> flat
      tauto
    · exact illTyped_yields
  case defMethod =>
    dsimp only [applyFn, withTTPPT]
    split
    · refine outB_yields ?_
      unfold defMethod
      skips
      refine BldR.safe_pure ?_
      refine made_node (binds_Def.trans ?_) (uses_Def.trans ?_) (loose_Def.trans ?_) <;> flat
      tauto
    · exact illTyped_yields
  case defSingleton =>
    dsimp only [applyFn, withTNTTPPT]
    split
    · refine outB_yields ?_
      unfold defSingleton
      skips
      refine BldR.safe_pure ?_
      refine made_node (binds_Defs.trans ?_) (uses_Defs.trans ?_) (loose_Defs.trans ?_) <;> flat
      tauto
    · exact illTyped_yields
  case defEndless =>
    dsimp only [applyFn, withTTPTP]
    split
    · refine outB_yields ?_
      unfold defEndlessMethod
      skips
      refine BldR.safe_pure ?_
      refine made_node (binds_Def.trans ?_) (uses_Def.trans ?_) (loose_Def.trans ?_) <;> flat
      tauto
    · exact illTyped_yields
  case defEndlessSingleton =>
    dsimp only [applyFn, withTNTTPTP]
    split
    · refine outB_yields ?_
      unfold defEndlessSingleton
      skips
      refine BldR.safe_pure ?_
      refine made_node (binds_Defs.trans ?_) (uses_Defs.trans ?_) (loose_Defs.trans ?_) <;> flat
      tauto
    · exact illTyped_yields

theorem bound_made {k : Nat} (hf : bound f = some k) : BldR.Yields (applyFn ext' indent f xs) fun a => ∃ t, xs[k]? = some t ∧
    Made ext x a (BA ext x t ∨ Some_ (Binds ext x) (treesOf xs)) (Some_ (Uses ext x) (treesOf xs)) (Some_ (Loose ext x) (treesOf xs)) := by
  cases f <;> simp only [bound, Option.some.injEq, reduceCtorEq] at hf <;> subst hf
  case arg =>
    dsimp only [applyFn, withT]
    split
    · refine outB_yields ?_
      unfold arg
      refine BldR.safe_bind (BldR.safe_lift (BldM.safe_liftR value_gives)) fun n hn => ?_
      subst hn
      skips
      refine BldR.safe_pure ⟨_, rfl, made_node (binds_Arg.trans ?_) (uses_Arg.trans ?_) (loose_Arg.trans ?_)⟩ <;> flat
      exact eq_comm
    · exact illTyped_yields
  case shadowarg =>
    dsimp only [applyFn, withT]
    split
    · refine outB_yields ?_
      unfold shadowarg
      refine BldR.safe_bind (BldR.safe_lift (BldM.safe_liftR value_gives)) fun n hn => ?_
      subst hn
      skips
      refine BldR.safe_pure ⟨_, rfl, made_node (binds_Shadowarg.trans ?_) (uses_Shadowarg.trans ?_) (loose_Shadowarg.trans ?_)⟩ <;> flat
      exact eq_comm
    · exact illTyped_yields
  case optarg =>
    dsimp only [applyFn, withTTN]
    split
    · refine outB_yields ?_
      unfold optarg
      refine BldR.safe_bind (BldR.safe_lift (BldM.safe_liftR value_gives)) fun n hn => ?_
      subst hn
      skips
      refine BldR.safe_pure ⟨_, rfl, made_node (binds_Optarg.trans ?_) (uses_Optarg.trans ?_) (loose_Optarg.trans ?_)⟩ <;> flat
      exact or_congr_left eq_comm
    · exact illTyped_yields
  case kwarg =>
    dsimp only [applyFn, withT]
    split
    · refine outB_yields ?_
      unfold kwarg
      refine BldR.safe_bind (BldR.safe_lift (BldM.safe_liftR value_gives)) fun n hn => ?_
      subst hn
      skips
      refine BldR.safe_pure ⟨_, rfl, made_node (binds_Kwarg.trans ?_) (uses_Kwarg.trans ?_) (loose_Kwarg.trans ?_)⟩ <;> flat
      exact eq_comm
    · exact illTyped_yields
  case kwoptarg =>
    dsimp only [applyFn, withTN]
    split
    · refine outB_yields ?_
      unfold kwoptarg
      refine BldR.safe_bind (BldR.safe_lift (BldM.safe_liftR value_gives)) fun n hn => ?_
      subst hn
      skips
      refine BldR.safe_pure ⟨_, rfl, made_node (binds_Kwoptarg.trans ?_) (uses_Kwoptarg.trans ?_) (loose_Kwoptarg.trans ?_)⟩ <;> flat
      exact or_congr_left eq_comm
    · exact illTyped_yields
  case restarg =>
    dsimp only [applyFn, withTO]
    split
    · refine outB_yields ?_
      unfold restarg
      refine BldR.safe_bind checkedName_gives fun p hp => ?_
      obtain ⟨n, nl⟩ := p
      dsimp only at hp
      subst hp
      refine BldR.safe_pure ⟨_, rfl, made_node (binds_Restarg.trans ?_) (uses_Restarg.trans ?_) (loose_Restarg.trans ?_)⟩ <;> flat
      simp only [BA, Option.mem_def, Option.map_eq_some_iff]
    · exact illTyped_yields
  case kwrestarg =>
    dsimp only [applyFn, withTO]
    split
    · refine outB_yields ?_
      unfold kwrestarg
      refine BldR.safe_bind checkedName_gives fun p hp => ?_
      obtain ⟨n, nl⟩ := p
      dsimp only at hp
      subst hp
      refine BldR.safe_pure ⟨_, rfl, made_node (binds_Kwrestarg.trans ?_) (uses_Kwrestarg.trans ?_) (loose_Kwrestarg.trans ?_)⟩ <;> flat
      simp only [BA, Option.mem_def, Option.map_eq_some_iff]
    · exact illTyped_yields
  case blockarg =>
    dsimp only [applyFn, withTO]
    split
    · refine outB_yields ?_
      unfold blockarg
      refine BldR.safe_bind (BldR.safe_lift (BldM.safe_liftR maybeValue_gives)) fun n hn => ?_
      subst hn
      skips
      all_goals
        refine BldR.safe_pure ⟨_, rfl, made_node (binds_Blockarg.trans ?_) (uses_Blockarg.trans ?_) (loose_Blockarg.trans ?_)⟩ <;> flat
        simp only [BA, Option.mem_def, Option.map_eq_some_iff]
    · exact illTyped_yields

theorem assign_made {n m : Node} (hb : bareNode n) : Res.Yields (assign n t m) fun r => Made ext x (.node r)
    (Binds ext x n ∨ Binds ext x m) (Uses ext x n ∨ Uses ext x m) (Loose ext x n ∨ Loose ext x m) := by
  unfold assign
  dsimp only
  split
  all_goals first
    | skip1
    | (split
       · rename_i ha
         rw [List.isEmpty_iff] at ha
         subst ha
         refine Res.safe_ok (made_node ?_ ?_ ?_)
         · adds binds_additive
         · adds uses_additive
         · adds loose_additive
       · skip1)
    | (simp only [bareNode] at hb
       subst hb
       refine Res.safe_ok (made_node ?_ ?_ ?_)
       · first | (adds binds_additive; done) | (rw [binds_wide.Casgn, binds_wide.Casgn]; simp; done) | (adds binds_additive; exact or_assoc.symm) | (nonplain; simp; done) | (nonplain; simp [or_assoc]; done)
       · first | (adds uses_additive; done) | (rw [uses_wide.Casgn, uses_wide.Casgn]; simp; done) | (adds uses_additive; exact or_assoc.symm) | (nonplain; simp; done) | (nonplain; simp [or_assoc]; done)
       · first | (adds loose_additive; done) | (rw [loose_wide.Casgn, loose_wide.Casgn]; simp; done) | (adds loose_additive; exact or_assoc.symm) | (nonplain; simp; done) | (nonplain; simp [or_assoc]; done))

theorem keyword_none {k : KeywordCmd} {l : List Node} (hk : k = .Redo ∨ k = .Retry ∨ k = .Zsuper) :
    BldR.Yields (keywordCmd k t b l e) fun r => Made ext x (.node r) False False False := by
  have key : ∀ r : Node, (∃ a, r = .Redo a) ∨ (∃ a, r = .Retry a) ∨ (∃ a, r = .ZSuper a) → Made ext x (.node r) False False False := by
    rintro r (⟨a, rfl⟩ | ⟨a, rfl⟩ | ⟨a, rfl⟩) <;> refine made_node ?_ ?_ ?_
    all_goals first | adds binds_additive | adds uses_additive | adds loose_additive
  unfold keywordCmd
  dsimp only
  split
  · skips
  · refine BldR.safe_bind (BldR.safe_lift (BldM.safe_liftR Res.yields_any)) fun m _ => ?_
    rcases hk with rfl | rfl | rfl <;> exact BldR.safe_pure (key _ (by simp))
theorem keyword_defined {Q : Node → Prop} (h : Additive Q) {n : Node} : BldR.Yields (keywordCmd .Defined t b [n] e) fun r => Q r ↔ Q n := by
  unfold keywordCmd
  dsimp only
  refine BldR.safe_bind (P := fun l => l = [n]) ?_ fun l hl => ?_
  · exact BldR.safe_lift (BldM.safe_liftR (Res.safe_ok rfl))
  subst hl
  refine BldR.safe_bind (P := fun m => m = n) ?_ fun m hm => ?_
  · exact BldR.safe_lift (BldM.safe_liftR (Res.safe_ok rfl))
  subst hm
  exact BldR.safe_pure h.Defined
theorem keyword_plain {Q : Node → Prop} (h : Additive Q) {k : KeywordCmd} {l : List Node}
    (hk : k ≠ .Redo ∧ k ≠ .Retry ∧ k ≠ .Zsuper ∧ k ≠ .Defined) : BldR.Yields (keywordCmd k t b l e) fun r => Q r ↔ Some_ Q l := by
  obtain ⟨h1, h2, h3, h4⟩ := hk
  have key : Res.Yields (if k = .Yield ∨ k = .Super then rewriteHashArgsToKwargs l else .ok l) fun m => Some_ Q m ↔ Some_ Q l := by
    split
    · exact rewrite_adds h l
    · exact Res.safe_ok Iff.rfl
  unfold keywordCmd
  dsimp only
  split
  · skips
  · rename_i k _ _ _ 
    refine BldR.safe_bind (BldR.safe_lift (BldM.safe_liftR key)) fun m hm => ?_
    clear key
    cases k <;> first | contradiction | (refine BldR.safe_pure ?_; adds h; exact hm)
end

end Verif
