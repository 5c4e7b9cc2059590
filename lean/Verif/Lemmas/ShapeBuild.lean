import Verif.Lemmas.ShapeSafe
import Verif.Props.BuilderChecks
/-!
Shapes of what the functions of the builder return: the parts used by many of them.
-/
namespace Verif
open Builder Shape

variable {g : Prop}

/-! ### Conditions -/

/-- What becomes of the kind of a condition. -/
def condKind (k : NKind) : NKind :=
  match k with
  | .Irange => .IFlipFlop
  | .Erange => .EFlipFlop
  | .Regexp => .MatchCurrentLine
  | k => k
theorem ite_condKind {c : Bool} {a b : NKind} (ha : condKind a = a) (hb : condKind b = b) :
    (if c = true then a else b) = condKind (if c = true then a else b) := by
  cases c
  · exact hb.symm
  · exact ha.symm
theorem checkCondition_kind (n : Node) : (checkCondition n).kind = condKind n.kind := by
  cases n <;> first | rfl | (simp only [checkCondition]; first | rfl | exact ite_condKind rfl rfl)

/-- A set of kinds and what conditions make of it. -/
def condMap (m m' : Kinds) : Bool :=
  sub (without m (ks [.Irange, .Erange, .Regexp])) m' && sub (ks [.IFlipFlop, .EFlipFlop, .MatchCurrentLine]) m'
theorem checkCondition_has {n : Node} {m m' : Kinds} (h : Has m n) (hm : condMap m m' = true) : Has m' (checkCondition n) := by
  unfold condMap at hm
  rw [Bool.and_eq_true] at hm
  by_cases hk : Has (ks [.Irange, .Erange, .Regexp]) n
  · refine Has.mono ?_ hm.2
    unfold Has
    rw [checkCondition_kind]
    rw [has_ks, has_ks, has_ks] at hk
    rcases hk with hk | hk | hk | hk
    · rw [hk]; rfl
    · rw [hk]; rfl
    · rw [hk]; rfl
    · exact absurd hk has_nil
  · have h2 := (has_without.2 ⟨h, hk⟩).mono hm.1
    unfold Has
    rw [checkCondition_kind]
    have : condKind n.kind = n.kind := by
      rw [has_ks, has_ks, has_ks, not_or, not_or, not_or] at hk
      unfold condKind
      split
      · exact absurd (by assumption) hk.1
      · exact absurd (by assumption) hk.2.1
      · exact absurd (by assumption) hk.2.2.1
      · rfl
    rw [this]
    exact h2

theorem checkCondition_shaped (n : Node) (h : Shaped n) : Shaped (checkCondition n) := by
  induction n using Props.cond_induction with
  | paren st b e x ih =>
    rw [show checkCondition (.Begin [st] b e x) = .Begin [checkCondition st] b e x from by simp [checkCondition, checkConditionSingle]]
    rw [shaped_Begin] at *
    rw [okl_cons] at *
    exact ⟨⟨⟨checkCondition_has h.1.1.1 (by decide +kernel), ih h.1.1.2⟩, okl_nil⟩, h.2⟩
  | and l r o x ihl ihr =>
    rw [show checkCondition (.And l r o x) = .And (checkCondition l) (checkCondition r) o x from by simp [checkCondition]]
    rw [shaped_And] at *
    exact ⟨⟨checkCondition_has h.1.1 (by decide +kernel), ihl h.1.2⟩, ⟨checkCondition_has h.2.1 (by decide +kernel), ihr h.2.2⟩⟩
  | or l r o x ihl ihr =>
    rw [show checkCondition (.Or l r o x) = .Or (checkCondition l) (checkCondition r) o x from by simp [checkCondition]]
    rw [shaped_Or] at *
    exact ⟨⟨checkCondition_has h.1.1 (by decide +kernel), ihl h.1.2⟩, ⟨checkCondition_has h.2.1 (by decide +kernel), ihr h.2.2⟩⟩
  | irange l r o x ihl ihr =>
    rw [show checkCondition (.Irange l r o x) = .IFlipFlop (checkConditionOpt l) (checkConditionOpt r) o x from by simp [checkCondition]]
    rw [shaped_Irange] at h
    rw [shaped_IFlipFlop]
    constructor
    · intro n hn
      rcases l with _ | l
      · cases hn
      · cases hn; exact ⟨checkCondition_has (h.1 l rfl).1 (by decide +kernel), ihl l rfl (h.1 l rfl).2⟩
    · intro n hn
      rcases r with _ | l
      · cases hn
      · cases hn; exact ⟨checkCondition_has (h.2 l rfl).1 (by decide +kernel), ihr l rfl (h.2 l rfl).2⟩
  | erange l r o x ihl ihr =>
    rw [show checkCondition (.Erange l r o x) = .EFlipFlop (checkConditionOpt l) (checkConditionOpt r) o x from by simp [checkCondition]]
    rw [shaped_Erange] at h
    rw [shaped_EFlipFlop]
    constructor
    · intro n hn
      rcases l with _ | l
      · cases hn
      · cases hn; exact ⟨checkCondition_has (h.1 l rfl).1 (by decide +kernel), ihl l rfl (h.1 l rfl).2⟩
    · intro n hn
      rcases r with _ | l
      · cases hn
      · cases hn; exact ⟨checkCondition_has (h.2 l rfl).1 (by decide +kernel), ihr l rfl (h.2 l rfl).2⟩
  | regexp p opt b e x =>
    rw [show checkCondition (.Regexp p opt b e x) = .MatchCurrentLine (.Regexp p opt b e x) x from by simp [checkCondition]]
    rw [shaped_MatchCurrentLine]
    exact ⟨by has, h⟩
  | other n e => rw [e]; exact h

theorem checkCondition_ok {n : Node} (h : Ok exprK n) : Ok condK (checkCondition n) :=
  ⟨checkCondition_has h.1 (by decide +kernel), checkCondition_shaped n h.2⟩

/-! ### Values -/

theorem voidValue_has {n : Node} (h : voidValue n = none) : ¬ Has voidK n := by
  intro hk
  unfold voidK at hk
  simp only [has_ks, has_nil, or_false] at hk
  rcases hk with hk | hk | hk | hk | hk | hk | hk | hk
  · obtain ⟨_, _, _, rfl, -⟩ := kind_Return hk; simp [voidValue] at h
  · obtain ⟨_, _, _, rfl, -⟩ := kind_ReturnC hk; simp [voidValue] at h
  · obtain ⟨_, _, _, rfl, -⟩ := kind_Break hk; simp [voidValue] at h
  · obtain ⟨_, _, _, rfl, -⟩ := kind_BreakC hk; simp [voidValue] at h
  · obtain ⟨_, _, _, rfl, -⟩ := kind_Next hk; simp [voidValue] at h
  · obtain ⟨_, _, _, rfl, -⟩ := kind_NextC hk; simp [voidValue] at h
  · obtain ⟨_, rfl⟩ := kind_Redo hk; simp [voidValue] at h
  · obtain ⟨_, rfl⟩ := kind_Retry hk; simp [voidValue] at h
theorem valueExpr_safe {n : Node} : BldR.Safe g (valueExpr n) fun _ => ¬ Has voidK n := by
  unfold valueExpr
  split
  · step; step
  · exact BldR.safe_pure (voidValue_has (by assumption))
theorem Ok.value {n : Node} {m m' : Kinds} (h : Ok m n) (hv : ¬ Has voidK n) (hs : sub (without m voidK) m' = true) : Ok m' n :=
  ⟨(has_without.2 ⟨h.1, hv⟩).mono hs, h.2⟩

/-! ### Collections -/

theorem collectionMap_safe {b e : Option Token} {l : List Node} (h : b.isSome = true ∨ l ≠ []) :
    Res.Safe g (collectionMap b l e) fun m => m.beginL = maybeLoc b ∧ m.endL = maybeLoc e := by
  unfold collectionMap
  dsimp only
  split
  · exact ⟨rfl, rfl⟩
  · next hn =>
    exfalso
    rcases h with h | h
    · obtain ⟨t, rfl⟩ := Option.isSome_iff_exists.1 h
      rcases e with _ | e <;> (generalize collectionExpr l = o at hn; rcases o with _ | o <;> simp [maybeLoc, joinMaybeLocs] at hn)
    · obtain ⟨n, l, rfl⟩ := List.exists_cons_of_ne_nil h
      have : ∃ x, collectionExpr (n :: l) = some x := by
        unfold collectionExpr joinMaybeExprs
        rw [List.getLast?_cons]
        exact ⟨_, rfl⟩
      obtain ⟨x, hx⟩ := this
      rw [hx] at hn
      rcases e with _ | e <;> rcases b with _ | b <;> simp [maybeLoc, joinMaybeLocs] at hn
theorem held_of {b : Option Token} {l : List Node} {o : Option Loc} (h : b.isSome = true ∨ l ≠ []) (ho : o = maybeLoc b) :
    Node.held o l = true := by
  subst ho
  unfold Node.held maybeLoc
  rw [Option.isSome_map, Bool.or_eq_true]
  exact h.imp id fun h => by cases l; exact absurd rfl h; rfl

theorem hashToKwargs_safe {n : Node} (h : Shaped n) (hk : isKwargs n = true) : Res.Safe g (hashToKwargs n) (Ok (ks [.Kwargs])) := by
  unfold isKwargs at hk
  split at hk
  · rw [shaped_Hash] at h
    exact ⟨by has, shaped_Kwargs.2 ⟨h.1, by simpa [Node.held] using h.2⟩⟩
  · cases hk

theorem rewriteHashArgsToKwargs_safe {l : List Node} (h : OkL callArgK l) :
    Res.Safe g (rewriteHashArgsToKwargs l) fun r => OkL callArgK r ∧ r.isEmpty = l.isEmpty := by
  unfold rewriteHashArgsToKwargs
  split
  · exact ⟨h, rfl⟩
  · next last rest hr =>
    have e : l = rest.reverse ++ [last] := by rw [← List.reverse_cons, ← hr, List.reverse_reverse]
    rw [e, okl_append, okl_cons] at h
    split
    · next hk =>
      refine Res.safe_bind (hashToKwargs_safe h.2.1.2 hk) fun n hn => Res.safe_pure ⟨?_, by
        rw [e]; generalize List.reverse _ = r; cases r <;> rfl⟩
      rw [okl_append, okl_cons]
      exact ⟨h.1, hn.mono (by decide +kernel), okl_nil⟩
    · split
      · next prev rest' =>
        split
        · next hk =>
          rw [List.reverse_cons, okl_append, okl_cons] at h
          refine Res.safe_bind (hashToKwargs_safe h.1.2.1.2 hk) fun n hn => Res.safe_pure ⟨?_, by
        rw [e]; simp only [List.reverse_cons, List.append_assoc]; generalize List.reverse _ = r; cases r <;> rfl⟩
          rw [okl_append, okl_cons]
          exact ⟨h.1.1, hn.mono (by decide +kernel), okl_cons.2 h.2⟩
        · exact ⟨by rw [e, okl_append, okl_cons]; exact h, rfl⟩
      · exact ⟨by rw [e, okl_append, okl_cons]; exact h, rfl⟩

/-! ### Parameters -/

/-- Nodes with a name to compare. -/
def Named (n : Node) : Prop := Res.Safe True (argName n) Any
/-- All values of the map are. -/
def MapOk (m : ArgMap) : Prop := ∀ p ∈ m, Named p.2

theorem checkDuplicateArg_safe {n : Node} {m : ArgMap} (h : Named n) (h2 : Res.Safe True (argNameLoc n) Any) (hm : MapOk m) :
    BldM.Safe g (checkDuplicateArg n m) MapOk := by
  have wk : ∀ {α : Type} {r : Res α} {P : α → Prop}, Res.Safe True r P → Res.Safe g r P := fun {α r P} h => by
    cases r with
    | ok a => exact h
    | error e => exact fun _ => h trivial
  unfold checkDuplicateArg
  refine BldM.safe_bind (BldM.safe_liftR (wk h)) fun a _ => ?_
  split
  · exact BldM.safe_pure hm
  · split
    · exact BldM.safe_pure fun p hp => by
        rcases List.mem_cons.1 hp with rfl | hp
        · exact h
        · exact hm p hp
    · next that hl =>
      have : Named that := by
        have : ∃ k, (k, that) ∈ m := by
          clear hm
          induction m with
          | nil => cases hl
          | cons p m ih =>
            rw [List.lookup_cons] at hl
            split at hl
            · cases hl; exact ⟨_, List.mem_cons_self ..⟩
            · obtain ⟨k, hk⟩ := ih hl
              exact ⟨k, List.mem_cons_of_mem _ hk⟩
        obtain ⟨k, hk⟩ := this
        exact hm _ hk
      refine BldM.safe_bind (BldM.safe_liftR (wk this)) fun a _ => ?_
      split
      · exact BldM.safe_pure hm
      · step
        split
        · refine BldM.safe_bind (BldM.safe_liftR (wk h2)) fun a _ => ?_
          step
          exact BldM.safe_pure hm
        · exact BldM.safe_pure hm

mutual
theorem checkDuplicateArgsNode_safe (n : Node) {m : ArgMap} (h : Ok paramK n) (hm : MapOk m) :
    BldM.Safe g (checkDuplicateArgsNode n m) MapOk := by
  have h1 := h.1
  unfold paramK at h1
  simp only [has_ks, has_nil, or_false] at h1
  rcases h1 with hk | hk | hk | hk | hk | hk | hk | hk | hk | hk | hk | hk
  · obtain ⟨_, _, rfl⟩ := kind_Arg hk; exact checkDuplicateArg_safe trivial trivial hm
  · obtain ⟨_, _, _, _, _, rfl⟩ := kind_Optarg hk; exact checkDuplicateArg_safe trivial trivial hm
  · obtain ⟨_, _, _, _, rfl⟩ := kind_Restarg hk; exact checkDuplicateArg_safe trivial trivial hm
  · obtain ⟨_, _, _, rfl⟩ := kind_Kwarg hk; exact checkDuplicateArg_safe trivial trivial hm
  · obtain ⟨_, _, _, _, rfl⟩ := kind_Kwoptarg hk; exact checkDuplicateArg_safe trivial trivial hm
  · obtain ⟨_, _, _, _, rfl⟩ := kind_Kwrestarg hk; exact checkDuplicateArg_safe trivial trivial hm
  · obtain ⟨_, _, rfl⟩ := kind_Kwnilarg hk; exact BldM.safe_pure hm
  · obtain ⟨_, _, _, _, rfl⟩ := kind_Blockarg hk; exact checkDuplicateArg_safe trivial trivial hm
  · obtain ⟨_, _, rfl⟩ := kind_Shadowarg hk; exact checkDuplicateArg_safe trivial trivial hm
  · obtain ⟨_, rfl⟩ := kind_ForwardArg hk; exact BldM.safe_pure hm
  · obtain ⟨items, _, _, _, rfl, hd⟩ := kind_MlhsP hk
    have h2 := (shaped_Mlhs.1 h.2).1
    rw [hd] at h2
    unfold checkDuplicateArgsNode
    exact checkDuplicateArgs_safe items (h2.mono (by decide +kernel)) hm
  · obtain ⟨items, _, _, _, rfl⟩ := kind_Procarg0 hk
    unfold checkDuplicateArgsNode
    exact checkDuplicateArgs_safe items ((shaped_Procarg0.1 h.2).1.mono (by decide +kernel)) hm
termination_by sizeOf n
theorem checkDuplicateArgs_safe (l : List Node) {m : ArgMap} (h : OkL paramK l) (hm : MapOk m) :
    BldM.Safe g (checkDuplicateArgs l m) MapOk := by
  match l with
  | [] => exact BldM.safe_pure hm
  | n :: l =>
    rw [okl_cons] at h
    exact BldM.safe_bind (checkDuplicateArgsNode_safe n h.1 hm) fun m hm => checkDuplicateArgs_safe l h.2 hm
termination_by sizeOf l
end

/-! ### Destructuring -/

theorem isDestr_true {n : Node} (h : Has destrK n) : n.isDestr = true := by
  unfold destrK at h
  simp only [has_ks, has_nil, or_false] at h
  rcases h with hk | hk | hk
  · obtain ⟨_, _, rfl⟩ := kind_Arg hk; simp [Node.isDestr]
  · obtain ⟨_, _, _, _, rfl, hd⟩ := kind_MlhsP hk; simp [Node.isDestr, hd]
  · obtain ⟨_, _, _, _, rfl⟩ := kind_Restarg hk; simp [Node.isDestr]
theorem destr_isDestr {n : Node} (h : n.isDestr = true) : Has destrK n := by
  unfold Node.isDestr at h
  split at h
  · has
  · has
  · unfold Has Node.kind; dsimp only; rw [if_pos h]; rfl
  · cases h
theorem isDestr_false {n : Node} (h : Has mlhsItemK n) : n.isDestr = false := by
  rw [← Bool.not_eq_true]
  intro hd
  have := has_and.2 ⟨h, destr_isDestr hd⟩
  rw [show mlhsItemK &&& destrK = 0 from by decide +kernel] at this
  exact has_zero this
theorem allDestr_true {l : List Node} (h : OkL destrK l) : Node.allDestr l = true := by
  induction l with
  | nil => simp [Node.allDestr]
  | cons n l ih => rw [okl_cons] at h; simp [Node.allDestr, isDestr_true h.1.1, ih h.2]
theorem allDestr_false {l : List Node} (h : OkL mlhsItemK l) (hn : l ≠ []) : Node.allDestr l = false := by
  obtain ⟨n, l, rfl⟩ := List.exists_cons_of_ne_nil hn
  rw [okl_cons] at h
  simp [Node.allDestr, isDestr_false h.1.1]

end Verif
