import Verif.Lemmas.ShapeBuild
/-!
Shapes of what the functions of the builder return: the functions whose results depend on the kinds of their arguments.
-/
namespace Verif
open Builder Shape Grammar

variable {g : Prop} {ext : BldExt}

/-- Parameters of a block. -/
def ArgsOk (m : Kinds) : ArgsType → Prop
  | .Args o => OkO m o
  | .Numargs _ => True
/-- Labels in patterns. -/
def LabelOk (m : Kinds) : PKwLabel → Prop
  | .PlainLabel _ => True
  | .QuotedLabel _ parts _ => OkL m parts

theorem ne_isEmpty {l : List Node} (h : l ≠ []) : (!l.isEmpty) = true := by
  cases l with
  | nil => exact absurd rfl h
  | cons => rfl
theorem Ok.kind {n : Node} {m m' : Kinds} (h : Ok m n) (hk : Has m' n) : Ok m' n := ⟨hk, h.2⟩

macro_rules | `(tactic| anys) => `(tactic| exact checkReservedForNumparam_safe)
macro_rules | `(tactic| anys) => `(tactic| exact checkAssignmentToNumparam_safe)
macro_rules | `(tactic| anys) => `(tactic| exact validateSymValue_safe)
macro_rules | `(tactic| anys) => `(tactic| exact declarePatternVar_safe)

/-- A part of what is said of a node. -/
macro "okp" : tactic => `(tactic| first
  | assumption
  | exact oko_none
  | exact okl_nil
  | exact ne_isEmpty (by assumption)
  | exact checkCondition_ok (by assumption)
  | exact Ok.mono (by assumption) (by decide +kernel)
  | exact OkO.mono (by assumption) (by decide +kernel)
  | exact OkL.mono (by assumption) (by decide +kernel)
  | exact oko_some.2 (by assumption)
  | exact okl_one (by assumption)
  | exact oko_some.2 (Ok.mono (by assumption) (by decide +kernel))
  | exact okl_one (Ok.mono (by assumption) (by decide +kernel))
  | rfl)
/-- All the parts. -/
syntax "okps" : tactic
macro_rules | `(tactic| okps) => `(tactic| first | okp | (refine ⟨?_, ?_⟩ <;> okps))
/-- A node that has just been made. -/
macro "okc" l:term : tactic => `(tactic| (
  refine ⟨by has, ?_⟩
  first
    | exact $l
    | (refine ($l).2 ?_
       okps)))
/-- The end of a function. -/
macro "fin" l:term : tactic => `(tactic| first
  | exact Res.safe_pure (by okc $l)
  | exact BldM.safe_pure (by okc $l)
  | exact BldR.safe_pure (by okc $l))

/-! ### Collections -/

theorem sh_array {x0 : Option Token} {x1 : List Node} {x2 : Option Token} (h : x0.isSome = true ∨ x1 ≠ []) (h1 : OkL valueSplatK x1) :
    Res.Safe g (array x0 x1 x2) (Ok (ks [.Array])) :=
  Res.safe_bind (collectionMap_safe h) fun _ hm => Res.safe_pure ⟨by has, shaped_Array.2 ⟨h1, held_of h hm.1⟩⟩
theorem sh_hashPattern {x0 : Option Token} {x1 : List Node} {x2 : Option Token} (h : x0.isSome = true ∨ x1 ≠ [])
    (h1 : OkL (ks [.Pair, .MatchVar, .MatchRest, .MatchNilPattern]) x1) :
    Res.Safe g (hashPattern x0 x1 x2) (Ok (ks [.HashPattern])) :=
  Res.safe_bind (collectionMap_safe h) fun _ hm => Res.safe_pure ⟨by has, shaped_HashPattern.2 ⟨h1, held_of h hm.1⟩⟩
theorem sh_findPattern {x0 : Option Token} {x1 : List Node} {x2 : Option Token} (h : x1 ≠ []) (h1 : OkL patternItemK x1) :
    Res.Safe g (findPattern x0 x1 x2) (Ok (ks [.FindPattern])) :=
  Res.safe_bind (collectionMap_safe (.inr h)) fun _ _ => Res.safe_pure ⟨by has, shaped_FindPattern.2 ⟨h1, ne_isEmpty h⟩⟩
theorem sh_associate {x0 : Option Token} {x1 : List Node} {x2 : Option Token} (h : x0.isSome = true ∨ x1 ≠ []) (h1 : OkL pairsK x1) :
    BldM.Safe g (associate x0 x1 x2) (Ok (ks [.Hash])) :=
  BldM.safe_bind warnAllDuplicateKeys_safe fun _ _ => BldM.safe_bind (BldM.safe_liftR (collectionMap_safe h)) fun _ hm =>
    BldM.safe_pure ⟨by has, shaped_Hash.2 ⟨h1, held_of h hm.1⟩⟩
theorem sh_multiLhs_destr {x0 : Option Token} {x1 : List Node} {x2 : Option Token} (h : x1 ≠ []) (h1 : OkL destrK x1) :
    Res.Safe g (multiLhs x0 x1 x2) (Ok (ks [.MlhsP])) := by
  refine Res.safe_bind (collectionMap_safe (.inr h)) fun _ _ => Res.safe_pure ⟨?_, shaped_Mlhs.2 ⟨?_, ne_isEmpty h⟩⟩
  · unfold Has Node.kind; dsimp only; rw [if_pos (allDestr_true h1)]; rfl
  · rw [if_pos (allDestr_true h1)]; exact h1
theorem sh_multiLhs_items {x0 : Option Token} {x1 : List Node} {x2 : Option Token} (h : x1 ≠ []) (h1 : OkL mlhsItemK x1) :
    Res.Safe g (multiLhs x0 x1 x2) (Ok (ks [.Mlhs])) := by
  have hd : ¬ Node.allDestr x1 = true := by rw [allDestr_false h1 h]; nofun
  refine Res.safe_bind (collectionMap_safe (.inr h)) fun _ _ => Res.safe_pure ⟨?_, shaped_Mlhs.2 ⟨?_, ne_isEmpty h⟩⟩
  · unfold Has Node.kind; dsimp only; rw [if_neg hd]; rfl
  · rw [if_neg hd]; exact h1
theorem sh_arrayPattern {x0 : Option Token} {x1 : List Node} {x2 x3 : Option Token} (h : x0.isSome = true ∨ x1 ≠ [])
    (h1 : OkL patternItemK x1) : Res.Safe g (arrayPattern x0 x1 x2 x3)
      fun n => Ok (ks [.ArrayPattern, .ArrayPatternWithTail]) n ∧ (x2 = none → Ok (ks [.ArrayPattern]) n) := by
  unfold arrayPattern
  refine Res.safe_bind (collectionMap_safe h) fun _ hm => ?_
  dsimp only
  have hh := held_of h hm.1
  split
  · next he =>
    rw [List.isEmpty_iff] at he
    subst he
    exact Res.safe_pure ⟨⟨by has, shaped_ArrayPattern.2 ⟨h1, hh⟩⟩, fun _ => ⟨by has, shaped_ArrayPattern.2 ⟨h1, hh⟩⟩⟩
  · next he =>
    split
    · next ht =>
      exact Res.safe_pure ⟨⟨by has, shaped_ArrayPatternWithTail.2 ⟨h1, by simpa using he⟩⟩, fun e => by rw [e] at ht; cases ht⟩
    · exact Res.safe_pure ⟨⟨by has, shaped_ArrayPattern.2 ⟨h1, hh⟩⟩, fun _ => ⟨by has, shaped_ArrayPattern.2 ⟨h1, hh⟩⟩⟩
theorem sh_args {x0 : Option Token} {x1 : List Node} {x2 : Option Token} (h : x0.isSome = true ∨ x1 ≠ [] ∨ x2 = none)
    (h1 : OkL paramK x1) : BldM.Safe g (Builder.args x0 x1 x2)
      fun r => OkO (ks [.Args]) r ∧ (x0.isSome = true ∨ x1 ≠ [] ∨ x2.isSome = true → r.isSome = true) := by
  unfold Builder.args
  refine BldM.safe_bind (checkDuplicateArgs_safe x1 h1 (m := []) nofun) fun _ _ => ?_
  refine BldM.safe_bind validateNoForwardArgAfterRestarg_safe fun _ _ => ?_
  split
  · next hc =>
    simp only [Bool.and_eq_true, Option.isNone_iff_eq_none, List.isEmpty_iff] at hc
    obtain ⟨⟨rfl, rfl⟩, rfl⟩ := hc
    exact BldM.safe_pure ⟨oko_none, by simp⟩
  · next hc =>
    have h' : x0.isSome = true ∨ x1 ≠ [] := by
      rcases h with h | h | rfl
      · exact .inl h
      · exact .inr h
      · rcases x0 with _ | x0
        · right; rintro rfl; exact hc rfl
        · exact .inl rfl
    refine BldM.safe_bind (BldM.safe_liftR (collectionMap_safe h')) fun _ hm => ?_
    exact BldM.safe_pure ⟨oko_some.2 ⟨by has, shaped_Args.2 ⟨h1, held_of h' hm.1⟩⟩, fun _ => rfl⟩

/-! ### Statements -/

theorem sh_compstmt {m : Kinds} {x0 : List Node} (hm : sub m beginsK = true) (h : OkL m x0) :
    Res.Safe g (compstmt x0) fun r => OkO (m ||| ks [.Begin]) r ∧ (x0 ≠ [] → r.isSome = true) := by
  unfold compstmt
  split
  · exact ⟨oko_none, fun h => absurd rfl h⟩
  · have := (okl_cons.1 h).1
    exact ⟨oko_some.2 ⟨has_or.2 (.inl this.1), this.2⟩, fun _ => rfl⟩
  · next h0 h1 =>
    refine Res.safe_bind (collectionMap_safe (.inr h0)) fun _ _ => Res.safe_pure ⟨oko_some.2 ⟨has_or.2 (.inr (by has)), ?_⟩, fun _ => rfl⟩
    refine shaped_Begin.2 ⟨h.mono hm, ?_⟩
    rcases x0 with _ | ⟨a, _ | ⟨b, l⟩⟩
    · exact absurd rfl h0
    · exact absurd rfl (h1 a)
    · simp
theorem sh_begin {m : Kinds} {x0 : Token} {x1 : Option Node} {x2 : Token} (hm : sub (without m (ks [.Mlhs, .MlhsP])) beginsK = true)
    (h : OkO m x1) : Ok ((m &&& ks [.Mlhs, .MlhsP]) ||| ks [.Begin]) (Builder.begin x0 x1 x2) := by
  unfold Builder.begin
  dsimp only
  have key : ∀ n, x1 = some n → ¬ Has (ks [.Mlhs, .MlhsP]) n → Ok beginsK n := fun n e hk =>
    ⟨(has_without.2 ⟨(h n e).1, hk⟩).mono hm, (h n e).2⟩
  split
  · split
    · rw [oko_some] at h
      refine ⟨has_or.2 (.inl (has_and.2 ⟨h.1, ?_⟩)), shaped_Mlhs.2 (shaped_Mlhs.1 h.2)⟩
      unfold Has Node.kind
      dsimp only
      split <;> rfl
    · split
      · exact ⟨has_or.2 (.inr (by has)), shaped_Begin.2 ⟨(shaped_Begin.1 (oko_some.1 h).2).1, rfl⟩⟩
      · refine ⟨has_or.2 (.inr (by has)), shaped_Begin.2 ⟨okl_one (key _ rfl ?_), rfl⟩⟩
        exact fun h => absurd (show (ks [.Mlhs, .MlhsP]).testBit NKind.Begin.ctorIdx = true from h) (by decide)
    · next hn hb =>
      refine ⟨has_or.2 (.inr (by has)), shaped_Begin.2 ⟨okl_one (key _ rfl ?_), rfl⟩⟩
      intro hk
      simp only [has_ks, has_nil, or_false] at hk
      rcases hk with hk | hk
      · obtain ⟨_, _, _, _, rfl, -⟩ := kind_Mlhs hk; exact hn _ _ _ _ rfl
      · obtain ⟨_, _, _, _, rfl, -⟩ := kind_MlhsP hk; exact hn _ _ _ _ rfl
  · exact ⟨has_or.2 (.inr (by has)), shaped_Begin.2 ⟨okl_nil, rfl⟩⟩
theorem sh_begin_mlhs {m : Kinds} {x0 : Token} {x1 : Option Node} {x2 : Token} (hm : sub m (ks [.Mlhs, .MlhsP]) = true)
    (hs : x1.isSome = true) (h : OkO m x1) : Ok m (Builder.begin x0 x1 x2) := by
  obtain ⟨n, rfl⟩ := Option.isSome_iff_exists.1 hs
  rw [oko_some] at h
  have hk := h.1.mono hm
  simp only [has_ks, has_nil, or_false] at hk
  have : ∃ a b c d, n = .Mlhs a b c d := by
    rcases hk with hk | hk
    · obtain ⟨a, b, c, d, e, -⟩ := kind_Mlhs hk; exact ⟨a, b, c, d, e⟩
    · obtain ⟨a, b, c, d, e, -⟩ := kind_MlhsP hk; exact ⟨a, b, c, d, e⟩
  obtain ⟨a, b, c, d, rfl⟩ := this
  exact ⟨h.1, shaped_Mlhs.2 (shaped_Mlhs.1 h.2)⟩

theorem orUnreachable_safe {o : Option α} (h : o.isSome = true) : Res.Safe g (orUnreachable o) Any := by
  cases o with
  | none => cases h
  | some => trivial
theorem isSome_or {α : Type} {a b : Option α} (h : a.isSome = true ∨ b.isSome = true) : (a.or b).isSome = true := by
  cases a with
  | none => exact h.elim nofun id
  | some => rfl
theorem maybeExpr_head {l : List Node} (h : l ≠ []) : (maybeExpr l.head?).isSome = true := by
  cases l with
  | nil => exact absurd rfl h
  | cons => rfl
theorem maybeExpr_last {l : List Node} (h : l ≠ []) : (maybeExpr l.getLast?).isSome = true := by
  obtain ⟨n, l, rfl⟩ := List.exists_cons_of_ne_nil h
  rw [List.getLast?_cons]; rfl

theorem beginBody_safe {x0 : Option Node} {x1 : List Node} {el en : Option (Token × Option Node)} (h0 : OkO stmtK x0)
    (h1 : OkL (ks [.RescueBody]) x1) (he : ∀ t o, el = some (t, o) → OkO stmtK o ∧ x1 ≠ [])
    (hs : ∀ t o, en = some (t, o) → OkO stmtK o) : Res.Safe g (beginBody x0 x1 el en) (OkO bodyK) := by
  unfold beginBody
  have key : Res.Safe g (beginBodyRescue x0 x1 el) (OkO stmtK) := by
    unfold beginBodyRescue
    split
    · next hne =>
      have hne : x1 ≠ [] := by rintro rfl; cases hne
      split
      · refine Res.safe_bind (orUnreachable_safe (isSome_or (.inr (maybeExpr_head hne)))) fun _ _ => Res.safe_pure (oko_some.2 ⟨by has, ?_⟩)
        exact shaped_Rescue.2 ⟨h0, h1, (he _ _ rfl).1, ne_isEmpty hne⟩
      · refine Res.safe_bind (orUnreachable_safe (isSome_or (.inr (maybeExpr_head hne)))) fun _ _ => ?_
        refine Res.safe_bind (orUnreachable_safe (maybeExpr_last hne)) fun _ _ => Res.safe_pure (oko_some.2 ⟨by has, ?_⟩)
        exact shaped_Rescue.2 ⟨h0, h1, oko_none, ne_isEmpty hne⟩
    · next hne =>
      have hne : x1 = [] := by simpa using hne
      split
      · exact absurd hne (he _ _ rfl).2
      · exact h0
  refine Res.safe_bind key fun r hr => ?_
  split
  · exact Res.safe_pure (oko_some.2 ⟨by has, shaped_Ensure.2 ⟨hr, hs _ _ rfl⟩⟩)
  · exact Res.safe_pure (hr.mono (by decide +kernel))
theorem rescueMod_safe {x0 : Node} {x1 : Token} {x2 : Node} (h0 : Ok stmtK x0) (h2 : Ok stmtK x2) :
    Res.Safe g (Grammar.rescueMod x0 x1 x2) fun r => OkO (ks [.Rescue]) r ∧ r.isSome = true := by
  unfold Grammar.rescueMod beginBody beginBodyRescue
  dsimp only
  refine Res.safe_pure ⟨oko_some.2 ⟨by has, shaped_Rescue.2 ⟨oko_some.2 h0, okl_one ⟨by has, ?_⟩, oko_none, rfl⟩⟩, rfl⟩
  exact shaped_RescueBody.2 ⟨oko_none, oko_none, oko_some.2 h2⟩

/-! ### Variables and assignments -/

/-- What a variable can turn out to be. -/
def accK (m : Kinds) : Kinds := if m.testBit NKind.Lvar.ctorIdx then m ||| ks [.Send0] else m
theorem sh_accessible {m : Kinds} {x0 : Node} (h : Ok m x0) : BldM.Safe g (accessible x0) (Ok (accK m)) := by
  have up : Ok (accK m) x0 := by
    unfold accK
    split
    · exact ⟨has_or.2 (.inl h.1), h.2⟩
    · exact h
  unfold accessible
  split
  · next name x =>
    have hl : m.testBit NKind.Lvar.ctorIdx = true := h.1
    have sd : Ok (accK m) (.Send none name [] none (some x) none none none x) := by
      unfold accK
      rw [if_pos hl]
      exact ⟨has_or.2 (.inr (by has)), shaped_Send.2 ⟨oko_none, okl_nil⟩⟩
    have rest : BldM.Safe g (do
        if ← tryDeclareNumparam name x then return .Lvar name x
        let s ← get
        if !s.staticEnv.isDeclared name then return .Send none name [] none (some x) none none none x
        if s.currentArg.top = some name then error (.CircularArgumentReference name) x
        return .Lvar name x : BldM Node) (Ok (accK m)) := by
      refine BldM.safe_bind tryDeclareNumparam_safe fun _ _ => ?_
      split
      · exact BldM.safe_pure up
      · step
        split
        · exact BldM.safe_pure sd
        · steps
          all_goals exact BldM.safe_pure up
    split
    · exact BldM.safe_bind BldM.safe_error fun _ _ => rest
    · exact rest
  · exact BldM.safe_pure up

theorem sh_assignable_var {x0 : Node} (h : Ok (ks [.MatchVar]) x0) : BldR.Safe g (assignable x0) (Ok (ks [.MatchVar])) := by
  have hk := h.1
  simp only [has_ks, has_nil, or_false] at hk
  obtain ⟨_, _, _, rfl⟩ := kind_MatchVar hk
  unfold assignable
  steps
  exact BldR.safe_pure h
theorem sh_assignable {x0 : Node} (h : Ok (ks [.Cvar, .Ivar, .Gvar, .Const, .Lvar, .BackRef, .NthRef] ||| keywordVarK) x0) :
    BldR.Safe g (assignable x0) (Ok (ks [.LvasgnT, .IvasgnT, .GvasgnT, .CvasgnT, .CasgnT])) := by
  have hk := h.1
  unfold keywordVarK at hk
  simp only [has_or, has_ks, has_nil, or_false] at hk
  rcases hk with (hk | hk | hk | hk | hk | hk | hk) | (hk | hk | hk | hk | hk | hk | hk)
  · obtain ⟨_, _, rfl⟩ := kind_Cvar hk; exact BldR.safe_pure ⟨by has, shaped_Cvasgn.2 oko_none⟩
  · obtain ⟨_, _, rfl⟩ := kind_Ivar hk; exact BldR.safe_pure ⟨by has, shaped_Ivasgn.2 oko_none⟩
  · obtain ⟨_, _, rfl⟩ := kind_Gvar hk; exact BldR.safe_pure ⟨by has, shaped_Gvasgn.2 oko_none⟩
  · obtain ⟨_, _, _, _, _, rfl⟩ := kind_Const hk
    unfold assignable
    steps
    exact BldR.safe_pure ⟨by has, shaped_Casgn.2 ⟨shaped_Const.1 h.2, oko_none⟩⟩
  · obtain ⟨_, _, rfl⟩ := kind_Lvar hk
    unfold assignable
    steps
    exact BldR.safe_pure ⟨by has, shaped_Lvasgn.2 oko_none⟩
  · obtain ⟨_, _, rfl⟩ := kind_BackRef hk; unfold assignable; steps
  · obtain ⟨_, _, rfl⟩ := kind_NthRef hk; unfold assignable; steps
  · obtain ⟨_, rfl⟩ := kind_Nil hk; unfold assignable; steps
  · obtain ⟨_, rfl⟩ := kind_True hk; unfold assignable; steps
  · obtain ⟨_, rfl⟩ := kind_False hk; unfold assignable; steps
  · obtain ⟨_, rfl⟩ := kind_Self_ hk; unfold assignable; steps
  · obtain ⟨_, rfl⟩ := kind_File hk; unfold assignable; steps
  · obtain ⟨_, rfl⟩ := kind_Line hk; unfold assignable; steps
  · obtain ⟨_, rfl⟩ := kind_Encoding hk; unfold assignable; steps

theorem opAssignLhs_safe {x0 : Node} (h : Ok (ks [.LvasgnT, .IvasgnT, .GvasgnT, .CvasgnT, .CasgnT, .Send0, .CSend0, .Index, .BackRef,
    .NthRef]) x0) : BldR.Safe g (opAssignLhs x0) (Ok targetK) := by
  have hk := h.1
  simp only [has_ks, has_nil, or_false] at hk
  have up : ∀ {k}, x0.kind = k → targetK.testBit k.ctorIdx = true → Ok targetK x0 := fun e hb => ⟨has_of e hb, h.2⟩
  rcases hk with hk | hk | hk | hk | hk | hk | hk | hk | hk | hk
  · obtain ⟨_, _, _, _, _, rfl, -⟩ := kind_LvasgnT hk; exact BldR.safe_pure (up hk (by decide))
  · obtain ⟨_, _, _, _, _, rfl, -⟩ := kind_IvasgnT hk; exact BldR.safe_pure (up hk (by decide))
  · obtain ⟨_, _, _, _, _, rfl, -⟩ := kind_GvasgnT hk; exact BldR.safe_pure (up hk (by decide))
  · obtain ⟨_, _, _, _, _, rfl, -⟩ := kind_CvasgnT hk; exact BldR.safe_pure (up hk (by decide))
  · obtain ⟨_, _, _, _, _, _, _, rfl, -⟩ := kind_CasgnT hk; exact BldR.safe_pure (up hk (by decide))
  · obtain ⟨_, _, _, _, _, _, _, _, _, rfl, -⟩ := kind_Send0 hk; exact BldR.safe_pure (up hk (by decide))
  · obtain ⟨_, _, _, _, _, _, _, _, _, rfl, -⟩ := kind_CSend0 hk; exact BldR.safe_pure (up hk (by decide))
  · obtain ⟨_, _, _, _, _, rfl⟩ := kind_Index hk
    exact BldR.safe_pure ⟨by has, shaped_IndexAsgn.2 ⟨(shaped_Index.1 h.2).1, (shaped_Index.1 h.2).2, oko_none⟩⟩
  · obtain ⟨_, _, rfl⟩ := kind_BackRef hk; unfold opAssignLhs; steps
  · obtain ⟨_, _, rfl⟩ := kind_NthRef hk; unfold opAssignLhs; steps

/-! ### Parameters -/

theorem checkedName_safe {t : Option Token} : BldR.Safe g (checkedName t) Any := by
  cases t with
  | none => exact BldR.safe_pure trivial
  | some t =>
    unfold checkedName
    steps
    exact BldR.safe_pure trivial

theorem sh_procargs {a b : Kinds} {x0 x1 : List Node} (h0 : OkL a x0) (h1 : OkL b x1)
    (hc : x1 ≠ [] ∨ x0 = [] ∨ sub a (ks [.Arg, .MlhsP]) = true) : Res.Safe g (procargs x0 x1) fun r =>
      OkL (a ||| b ||| ks [.Procarg0]) r ∧ (x0 ≠ [] ∨ x1 ≠ [] → r ≠ []) ∧ (x1 ≠ [] ∨ x0 = [] → OkL (a ||| b) r) := by
  unfold procargs
  split
  · next x =>
    have hs : sub a (ks [.Arg, .MlhsP]) = true := by
      rcases hc with hc | hc | hc
      · exact absurd rfl hc
      · cases hc
      · exact hc
    have hx := (okl_cons.1 h0).1
    have hk := hx.1.mono hs
    simp only [has_ks, has_nil, or_false] at hk
    have : Res.Safe g (procarg0 x) (Ok (ks [.Procarg0])) := by
      rcases hk with hk | hk
      · obtain ⟨_, _, rfl⟩ := kind_Arg hk
        exact ⟨by has, shaped_Procarg0.2 ⟨okl_one ⟨by has, shaped_Arg⟩, rfl⟩⟩
      · obtain ⟨_, _, _, _, rfl, hd⟩ := kind_MlhsP hk
        have h2 := shaped_Mlhs.1 hx.2
        rw [hd] at h2
        exact ⟨by has, shaped_Procarg0.2 h2⟩
    refine Res.safe_bind this fun r hr => Res.safe_pure ⟨okl_one ⟨has_or.2 (.inr hr.1), hr.2⟩, fun _ => nofun, ?_⟩
    rintro (hc | hc)
    · exact absurd rfl hc
    · cases hc
  · have : OkL (a ||| b) (x0 ++ x1) := okl_append.2
      ⟨fun n hn => ⟨has_or.2 (.inl (h0 n hn).1), (h0 n hn).2⟩, fun n hn => ⟨has_or.2 (.inr (h1 n hn).1), (h1 n hn).2⟩⟩
    refine Res.safe_ok ⟨fun n hn => ⟨has_or.2 (.inl (this n hn).1), (this n hn).2⟩, ?_, fun _ => this⟩
    rintro (hc | hc) <;> simp [hc]

/-! ### Calls -/

/-- The kinds of a call, with or without a dot, with or without arguments. -/
def callK : Bool → Bool → Kinds
  | true, true => ks [.Send0, .CSend0]
  | true, false => ks [.Send, .CSend]
  | false, true => ks [.Send0]
  | false, false => ks [.Send]
theorem callMethod_safe {x0 : Option Node} {d s l r : Option Token} {x1 : List Node} (h0 : OkO receiverK x0)
    (hs : s.isSome = true ∨ (x0.isSome = true ∧ r.isSome = true)) (h1 : OkL callArgK x1) :
    Res.Safe g (callMethod x0 d s l x1 r) (Ok (callK d.isSome x1.isEmpty)) := by
  unfold callMethod
  have e1 : ((maybeExpr x0).or (maybeLoc s)).isSome = true := isSome_or (by
    rcases hs with hs | hs
    · right; simpa [maybeLoc] using hs
    · left; simpa [maybeExpr] using hs.1)
  have e2 : (((maybeLoc r).or (maybeExpr x1.getLast?)).or (maybeLoc s)).isSome = true := isSome_or (by
    rcases hs with hs | hs
    · right; simpa [maybeLoc] using hs
    · left; exact isSome_or (.inl (by simpa [maybeLoc] using hs.2)))
  refine Res.safe_bind (orUnreachable_safe e1) fun _ _ => Res.safe_bind (orUnreachable_safe e2) fun _ _ => ?_
  dsimp only
  step
  refine Res.safe_bind (rewriteHashArgsToKwargs_safe h1) fun r hr => ?_
  split
  · refine Res.safe_pure ⟨?_, shaped_Send.2 ⟨h0, hr.1⟩⟩
    rw [← hr.2]
    unfold Has Node.kind
    dsimp only
    cases d.isSome <;> cases r.isEmpty <;> rfl
  · next hd =>
    refine Res.safe_bind orExpect_safe fun n hn => Res.safe_bind orExpect_safe fun _ hd => ?_
    subst hn
    refine Res.safe_pure ⟨?_, shaped_CSend.2 ⟨oko_some.1 h0, hr.1⟩⟩
    rw [← hr.2, show d.isSome = true from by cases d with | none => cases hd | some => rfl]
    unfold Has Node.kind
    dsimp only
    cases r.isEmpty <;> rfl
theorem callK_sends {a b : Bool} {n : Node} (h : Ok (callK a b) n) : Ok sendsK n := by
  cases a <;> cases b <;> exact h.mono (by decide +kernel)

theorem attrAsgn_safe {x0 : Node} {x1 x2 : Token} (h0 : Ok receiverK x0) :
    Res.Safe g (Builder.attrAsgn x0 x1 x2) (Ok (ks [.Send0, .CSend0])) := by
  unfold Builder.attrAsgn
  dsimp only
  step
  split
  · exact Res.safe_pure ⟨by has, shaped_Send.2 ⟨oko_some.2 h0, okl_nil⟩⟩
  · exact Res.safe_pure ⟨by has, shaped_CSend.2 ⟨h0, okl_nil⟩⟩
theorem attrAsgn_send {x0 : Node} {x1 x2 : Token} (h0 : Ok receiverK x0) (ht : ¬ x1.tokenType = .tANDDOT) :
    Res.Safe g (Builder.attrAsgn x0 x1 x2) (Ok (ks [.Send0])) := by
  unfold Builder.attrAsgn
  dsimp only
  step
  rw [show callTypeForDot (some x1) = .Send from by simp [callTypeForDot, ht]]
  exact Res.safe_pure ⟨by has, shaped_Send.2 ⟨oko_some.2 h0, okl_nil⟩⟩

/-! ### Blocks -/

theorem takesBlock_has {n : Node} (h : n.takesBlock = true) : Has jumpCalleeK n := by
  unfold Node.takesBlock at h
  split at h
  · unfold Has Node.kind; dsimp only; split <;> rfl
  · unfold Has Node.kind; dsimp only; split <;> rfl
  · has
  · has
  · has
  · has
  · cases h
theorem has_takesBlock {n : Node} (h : Has jumpCalleeK n) : n.takesBlock = true := by
  unfold jumpCalleeK at h
  simp only [has_ks, has_nil, or_false] at h
  rcases h with hk | hk | hk | hk | hk | hk | hk | hk
  · obtain ⟨_, _, _, _, _, _, _, _, _, rfl, -⟩ := kind_Send hk; rfl
  · obtain ⟨_, _, _, _, _, _, _, _, _, rfl, -⟩ := kind_Send0 hk; rfl
  · obtain ⟨_, _, _, _, _, _, _, _, _, rfl, -⟩ := kind_CSend hk; rfl
  · obtain ⟨_, _, _, _, _, _, _, _, _, rfl, -⟩ := kind_CSend0 hk; rfl
  · obtain ⟨_, _, _, _, _, rfl⟩ := kind_Index hk; rfl
  · obtain ⟨_, _, _, _, _, rfl⟩ := kind_Super hk; rfl
  · obtain ⟨_, rfl⟩ := kind_ZSuper hk; rfl
  · obtain ⟨_, _, _, _, _, rfl⟩ := kind_Yield hk; rfl

theorem blockNode_ok {c : Node} {b e : Token} {a : ArgsType} {o : Option Node} (hc : Ok (calleeK ||| ks [.Yield]) c)
    (ha : ArgsOk (ks [.Args]) a) (ho : OkO bodyK o) : Ok blocksK (blockNode c b a o e) := by
  unfold blockNode
  dsimp only
  cases a with
  | Args a => exact ⟨by has, shaped_Block.2 ⟨hc.mono (by decide +kernel), ha, ho⟩⟩
  | Numargs k =>
    refine ⟨by has, shaped_Numblock.2 ⟨hc.mono (by decide +kernel), ?_⟩⟩
    cases o with
    | none => exact ⟨by has, shaped_Nil⟩
    | some o => exact oko_some.1 ho

theorem rewriteArgsAndLoc_safe {l : List Node} {x : Loc} {b e : Token} {a : ArgsType} {o : Option Node} (hl : OkL jumpArgK l)
    (hh : Node.headTakesBlock l = true) (ha : ArgsOk (ks [.Args]) a) (ho : OkO bodyK o) :
    Res.Safe g (rewriteArgsAndLoc l x b a o e) fun r => OkL jumpArgK r.1 ∧ Node.headTakesBlock r.1 = false := by
  unfold rewriteArgsAndLoc
  cases l with
  | nil => cases hh
  | cons n l =>
    rw [okl_cons] at hl
    have hb : Ok blocksK (blockNode n b a o e) :=
      blockNode_ok ⟨(takesBlock_has hh).mono (by decide +kernel), hl.1.2⟩ ha ho
    refine Res.safe_pure ⟨okl_one (hb.mono (by decide +kernel)), ?_⟩
    unfold blockNode
    cases a <;> rfl

theorem blockChecks_safe {n : Node} : BldR.Safe g (blockChecks n) fun _ => ¬ n.kind = .Yield := by
  unfold blockChecks
  have hv : ∀ l, BldR.Safe g (validateBlockAndBlockArg l) Any := fun l => by
    unfold validateBlockAndBlockArg
    steps
    exact BldR.safe_pure trivial
  split
  · steps
  · refine (hv _).imp fun _ _ => ?_
    unfold Node.kind; dsimp only; split <;> nofun
  · refine (hv _).imp fun _ _ => ?_
    unfold Node.kind; dsimp only; split <;> nofun
  · next h _ _ =>
    refine BldR.safe_pure fun hk => ?_
    obtain ⟨_, _, _, _, _, rfl⟩ := kind_Yield hk
    exact h _ _ _ _ _ rfl

theorem sh_block_callee {x0 : Node} {x1 : Token} {x2 : ArgsType} {x3 : Option Node} {x4 : Token} (h0 : Ok calleeK x0)
    (h2 : ArgsOk (ks [.Args]) x2) (h3 : OkO bodyK x3) : BldR.Safe g (block x0 x1 x2 x3 x4) (Ok blocksK) := by
  unfold block
  refine BldR.safe_bind blockChecks_safe fun _ _ => ?_
  have hb := blockNode_ok (b := x1) (e := x4) (h0.mono (b := calleeK ||| ks [.Yield]) (by decide +kernel)) h2 h3
  have hk := h0.1
  unfold calleeK at hk
  simp only [has_ks, has_nil, or_false] at hk
  rcases hk with hk | hk | hk | hk | hk | hk | hk | hk
  · obtain ⟨_, _, _, _, _, _, _, _, _, rfl, -⟩ := kind_Send hk; exact BldR.safe_pure hb
  · obtain ⟨_, _, _, _, _, _, _, _, _, rfl, -⟩ := kind_Send0 hk; exact BldR.safe_pure hb
  · obtain ⟨_, _, _, _, _, _, _, _, _, rfl, -⟩ := kind_CSend hk; exact BldR.safe_pure hb
  · obtain ⟨_, _, _, _, _, _, _, _, _, rfl, -⟩ := kind_CSend0 hk; exact BldR.safe_pure hb
  · obtain ⟨_, _, _, _, _, rfl⟩ := kind_Index hk; exact BldR.safe_pure hb
  · obtain ⟨_, _, _, _, _, rfl⟩ := kind_Super hk; exact BldR.safe_pure hb
  · obtain ⟨_, rfl⟩ := kind_ZSuper hk; exact BldR.safe_pure hb
  · obtain ⟨_, rfl⟩ := kind_Lambda hk; exact BldR.safe_pure hb

theorem sh_block_cmd {x0 : Node} {x1 : Token} {x2 : ArgsType} {x3 : Option Node} {x4 : Token}
    (h0 : Ok (calleeK ||| ks [.Yield, .ReturnC, .BreakC, .NextC]) x0)
    (h2 : ArgsOk (ks [.Args]) x2) (h3 : OkO bodyK x3) :
    BldR.Safe g (block x0 x1 x2 x3 x4) (Ok (blocksK ||| ks [.Return, .Break, .Next])) := by
  have hk := h0.1
  rw [has_or] at hk
  rcases hk with hk | hk
  · exact (sh_block_callee ⟨hk, h0.2⟩ h2 h3).imp fun _ h => h.mono (by decide +kernel)
  · unfold block
    refine BldR.safe_bind blockChecks_safe fun _ hy => ?_
    simp only [has_ks, has_nil, or_false] at hk
    rcases hk with hk | hk | hk | hk
    · exact absurd hk hy
    · obtain ⟨l, _, _, rfl, hh⟩ := kind_ReturnC hk
      refine BldR.safe_bind (BldR.safe_lift (BldM.safe_liftR (rewriteArgsAndLoc_safe (shaped_Return.1 h0.2) hh h2 h3))) fun r hr => ?_
      refine BldR.safe_pure ⟨?_, shaped_Return.2 hr.1⟩
      unfold Has Node.kind; dsimp only; rw [hr.2]; rfl
    · obtain ⟨l, _, _, rfl, hh⟩ := kind_BreakC hk
      refine BldR.safe_bind (BldR.safe_lift (BldM.safe_liftR (rewriteArgsAndLoc_safe (shaped_Break.1 h0.2) hh h2 h3))) fun r hr => ?_
      refine BldR.safe_pure ⟨?_, shaped_Break.2 hr.1⟩
      unfold Has Node.kind; dsimp only; rw [hr.2]; rfl
    · obtain ⟨l, _, _, rfl, hh⟩ := kind_NextC hk
      refine BldR.safe_bind (BldR.safe_lift (BldM.safe_liftR (rewriteArgsAndLoc_safe (shaped_Next.1 h0.2) hh h2 h3))) fun r hr => ?_
      refine BldR.safe_pure ⟨?_, shaped_Next.2 hr.1⟩
      unfold Has Node.kind; dsimp only; rw [hr.2]; rfl

/-! ### Strings -/

theorem staticRegexpCaptures_safe {n : Node} :
    BldM.Safe g (staticRegexpCaptures ext n) fun c => c ≠ none → Has (ks [.Regexp]) n := by
  unfold staticRegexpCaptures
  split
  · exact BldM.safe_pure fun h => absurd rfl h
  · split
    · exact buildStaticRegexp_safe.imp fun _ _ _ => by has
    · exact BldM.safe_pure fun h => absurd rfl h

theorem strNode_safe {v : Bytes} {t e : Token} {l : List Node} (h : OkL strPartK l) : Res.Safe g (strNode (some t) v l (some e))
    fun r => Ok stringsK r ∧ (startsHeredoc t.tokenValue = true → Has (ks [.Heredoc, .XHeredoc]) r) := by
  unfold strNode
  split
  · exact Res.safe_pure ⟨⟨by has, shaped_Heredoc.2 h⟩, fun _ => by has⟩
  · next hh => exact Res.safe_bind (collectionMap_safe (.inl rfl)) fun _ _ => Res.safe_pure ⟨⟨by has, shaped_Str⟩, fun h => absurd h hh⟩
theorem stringCompose_safe {t e : Token} {l : List Node} (h : OkL strPartK l) : Res.Safe g (stringCompose (some t) l (some e))
    fun r => Ok stringsK r ∧ (startsHeredoc t.tokenValue = true → Has (ks [.Heredoc, .XHeredoc]) r) := by
  unfold stringCompose
  split
  · exact strNode_safe h
  · exact strNode_safe h
  · exact absurd (show strPartK.testBit NKind.Dstr.ctorIdx = true from (okl_cons.1 h).1.1) (by decide)
  · exact absurd (show strPartK.testBit NKind.Heredoc.ctorIdx = true from (okl_cons.1 h).1.1) (by decide)
  · unfold stringComposeMany
    split
    · exact Res.safe_pure ⟨⟨by has, shaped_Heredoc.2 h⟩, fun _ => by has⟩
    · next hh =>
      exact Res.safe_bind (collectionMap_safe (.inl rfl)) fun _ _ =>
        Res.safe_pure ⟨⟨by has, shaped_Dstr.2 (h.mono (by decide +kernel))⟩, fun h => absurd h hh⟩

theorem dedentHeredocParts_safe {w : Nat} : ∀ {l : List Node}, OkL strPartK l → Res.Safe g (dedentHeredocParts w l) (OkL strPartK)
  | [], _ => okl_nil
  | n :: l, h => by
    rw [okl_cons] at h
    have ih : Res.Safe g (dedentHeredocParts w l) (OkL strPartK) := dedentHeredocParts_safe h.2
    unfold dedentHeredocParts
    split
    · refine Res.safe_bind ih fun r hr => Res.safe_pure ?_
      split
      · exact hr
      · exact okl_cons.2 ⟨⟨by has, shaped_Str⟩, hr⟩
    all_goals try exact Res.safe_bind ih fun r hr => Res.safe_pure (okl_cons.2 ⟨h.1, hr⟩)
    next h1 h2 h3 h4 h5 h6 h7 =>
    exfalso
    have hk := h.1.1
    unfold strPartK at hk
    simp only [has_ks, has_nil, or_false] at hk
    rcases hk with hk | hk | hk | hk | hk | hk | hk
    · obtain ⟨_, _, _, _, rfl⟩ := kind_Str hk; exact h1 _ _ _ _ rfl
    · obtain ⟨_, _, _, _, rfl⟩ := kind_Begin hk; exact h2 _ _ _ _ rfl
    · obtain ⟨_, _, rfl⟩ := kind_Gvar hk; exact h3 _ _ rfl
    · obtain ⟨_, _, rfl⟩ := kind_BackRef hk; exact h4 _ _ rfl
    · obtain ⟨_, _, rfl⟩ := kind_NthRef hk; exact h5 _ _ rfl
    · obtain ⟨_, _, rfl⟩ := kind_Ivar hk; exact h6 _ _ rfl
    · obtain ⟨_, _, rfl⟩ := kind_Cvar hk; exact h7 _ _ rfl
theorem heredocDedent_safe {m : Kinds} {n : Node} {level : Int} (h : Ok m n) (hk : g → level = 0 ∨ Has (ks [.Heredoc, .XHeredoc]) n) :
    Res.Safe g (heredocDedent n level) (Ok m) := by
  unfold heredocDedent
  split
  · exact h
  · next h0 =>
    split
    · exact Res.safe_error nofun
    · split
      · refine Res.safe_bind (dedentHeredocParts_safe (shaped_Heredoc.1 h.2)) fun r hr => Res.safe_pure ⟨h.1, shaped_Heredoc.2 hr⟩
      · refine Res.safe_bind (dedentHeredocParts_safe (shaped_XHeredoc.1 h.2)) fun r hr => Res.safe_pure ⟨h.1, shaped_XHeredoc.2 hr⟩
      · next h1 h2 =>
        refine fun hg _ => ?_
        rcases hk hg with hk | hk
        · exact h0 hk
        · simp only [has_ks, has_nil, or_false] at hk
          rcases hk with hk | hk
          · obtain ⟨_, _, _, _, rfl⟩ := kind_Heredoc hk; exact h1 _ _ _ _ rfl
          · obtain ⟨_, _, _, _, rfl⟩ := kind_XHeredoc hk; exact h2 _ _ _ _ rfl

theorem regexpOptions_safe {t : Token} : Res.Safe g (regexpOptions t) (OkO (ks [.RegOpt])) := by
  unfold regexpOptions
  step
  split
  · exact Res.safe_pure oko_none
  · steps
    exact Res.safe_pure (oko_some.2 ⟨by has, shaped_RegOpt⟩)
theorem symbolPart_safe {n : Node} (h : Ok (ks [.Str, .Dstr, .Sym]) n) : BldM.Safe g (symbolPart n) (Ok symK) := by
  have hk := h.1
  simp only [has_ks, has_nil, or_false] at hk
  rcases hk with hk | hk | hk
  · obtain ⟨_, _, _, _, rfl⟩ := kind_Str hk
    exact BldM.safe_bind validateSymValue_safe fun _ _ => BldM.safe_pure ⟨by has, shaped_Sym⟩
  · obtain ⟨_, _, _, _, rfl⟩ := kind_Dstr hk
    exact BldM.safe_pure ⟨by has, shaped_Dsym.2 (shaped_Dstr.1 h.2)⟩
  · obtain ⟨_, _, _, _, rfl⟩ := kind_Sym hk
    exact BldM.safe_pure ⟨by has, shaped_Sym⟩
theorem symbolParts_safe : ∀ {l : List Node}, OkL (ks [.Str, .Dstr, .Sym]) l → BldM.Safe g (l.mapM symbolPart) (OkL symK)
  | [], _ => BldM.safe_pure okl_nil
  | n :: l, h => by
    rw [okl_cons] at h
    rw [List.mapM_cons]
    exact BldM.safe_bind (symbolPart_safe h.1) fun r hr => BldM.safe_bind (symbolParts_safe h.2) fun rs hrs =>
      BldM.safe_pure (okl_cons.2 ⟨hr, hrs⟩)
theorem symbolCompose_safe {t e : Token} {l : List Node} (h : OkL strPartK l) : BldM.Safe g (symbolCompose t l e) (Ok symK) := by
  unfold symbolCompose
  split
  · exact BldM.safe_bind (BldM.safe_liftR (collectionMap_safe (.inl rfl))) fun _ _ =>
      BldM.safe_bind validateSymValue_safe fun _ _ => BldM.safe_pure ⟨by has, shaped_Sym⟩
  · exact BldM.safe_bind (BldM.safe_liftR (collectionMap_safe (.inl rfl))) fun _ _ =>
      BldM.safe_pure ⟨by has, shaped_Dsym.2 (h.mono (by decide +kernel))⟩

/-! ### Patterns -/

theorem matchVar_safe {t : Token} : BldR.Safe g (matchVar ext t) (Ok (ks [.MatchVar])) := by
  unfold matchVar
  steps
  exact BldR.safe_pure ⟨by has, shaped_MatchVar⟩
theorem narrowName_safe {x : Loc} {b e : Option Loc} : Res.Safe g (narrowName x b e) Any := by
  unfold narrowName
  dsimp only
  steps
  · exact adjustEnd_safe
  · trivial
  · refine Res.safe_bind (P := Any) (Res.safe_ok trivial) fun _ _ => ?_
    steps
    exact adjustEnd_safe
  · trivial
mutual
theorem matchHashVarFromStr_safe {b e : Token} : (l : List Node) → BldR.Safe g (matchHashVarFromStr ext b e l) (Ok (ks [.MatchVar]))
  | [] => by unfold matchHashVarFromStr; steps
  | [n] => by unfold matchHashVarFromStr; exact matchHashVarFromNode_safe n
  | _ :: _ :: _ => by unfold matchHashVarFromStr; steps
theorem matchHashVarFromNode_safe {b e : Token} : (n : Node) → BldR.Safe g (matchHashVarFromNode ext b e n) (Ok (ks [.MatchVar]))
  | .Begin l _ _ _ => by unfold matchHashVarFromNode; exact matchHashVarFromStr_safe l
  | n => by
    unfold matchHashVarFromNode
    split
    · refine BldR.safe_bind declarePatternVar_safe fun _ _ => ?_
      refine BldR.safe_bind (BldR.safe_lift (BldM.safe_liftR narrowName_safe)) fun _ _ => ?_
      exact BldR.safe_pure ⟨by has, shaped_MatchVar⟩
    · exact matchHashVarFromStr_safe _
    · steps
end

/-! ### Jumps -/

theorem headTakesBlock_has {l : List Node} (hm : OkL jumpCalleeK l) (hn : l ≠ []) : Node.headTakesBlock l = true := by
  cases l with
  | nil => exact absurd rfl hn
  | cons n l => exact has_takesBlock (okl_cons.1 hm).1.1
/-- The three jumps that take values. -/
def jumpK : KeywordCmd → Kinds
  | .Return => ks [.Return, .ReturnC]
  | .Break => ks [.Break, .BreakC]
  | .Next => ks [.Next, .NextC]
  | _ => 0
/-- The same with a call for the value. -/
def jumpCK : KeywordCmd → Kinds
  | .Return => ks [.ReturnC]
  | .Break => ks [.BreakC]
  | .Next => ks [.NextC]
  | _ => 0
theorem jump_safe {p : KeywordCmd} {t : Token} {l r : Option Token} {x : List Node} (hp : p = .Return ∨ p = .Break ∨ p = .Next)
    (h : OkL jumpArgK x) : BldR.Safe g (keywordCmd p t l x r)
      fun n => Ok (jumpK p) n ∧ (OkL jumpCalleeK x → x ≠ [] → Ok (jumpCK p) n) := by
  rcases hp with rfl | rfl | rfl
  all_goals
    unfold keywordCmd
    dsimp only
    refine BldR.safe_bind (P := fun y => y = x) (BldR.safe_lift (BldM.safe_liftR (Res.safe_ok rfl))) fun y hy => ?_
    subst hy
  · refine BldR.safe_pure ⟨⟨?_, shaped_Return.2 h⟩, fun h1 h2 => ⟨?_, shaped_Return.2 h⟩⟩
    · unfold Has Node.kind; dsimp only; split <;> rfl
    · unfold Has Node.kind; dsimp only; rw [headTakesBlock_has h1 h2]; rfl
  · refine BldR.safe_pure ⟨⟨?_, shaped_Break.2 h⟩, fun h1 h2 => ⟨?_, shaped_Break.2 h⟩⟩
    · unfold Has Node.kind; dsimp only; split <;> rfl
    · unfold Has Node.kind; dsimp only; rw [headTakesBlock_has h1 h2]; rfl
  · refine BldR.safe_pure ⟨⟨?_, shaped_Next.2 h⟩, fun h1 h2 => ⟨?_, shaped_Next.2 h⟩⟩
    · unfold Has Node.kind; dsimp only; split <;> rfl
    · unfold Has Node.kind; dsimp only; rw [headTakesBlock_has h1 h2]; rfl

end Verif
