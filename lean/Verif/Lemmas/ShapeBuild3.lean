import Verif.Lemmas.ShapeBuild2
/-!
Shapes of what the functions of the builder return: each function as the grammar calls it. The statements are generated from the
table of `ShapeFn.lean`.
-/
namespace Verif
open Builder Shape Grammar

variable {g : Prop} {ext : BldExt} {indent : Int}

theorem sh_pairKeyword {x0 : Token} {x1 : Node} (h1 : Ok pairValueK x1) :
    BldM.Safe g (pairKeyword x0 x1) (Ok (ks [.Pair])) := by
  unfold Builder.pairKeyword
  dsimp only
  step
  step
  refine BldM.safe_bind validateSymValue_safe fun _ _ => ?_
  exact BldM.safe_pure ⟨by has, shaped_Pair.2 ⟨⟨by has, shaped_Sym⟩, h1⟩⟩
theorem sh_pairQuoted {x0 : Token} {x1 : List Node} {x2 : Token} {x3 : Node} (h1 : OkL strPartK x1) (h3 : Ok pairValueK x3) :
    BldM.Safe g (pairQuoted x0 x1 x2 x3) (Ok (ks [.Pair])) := by
  unfold Builder.pairQuoted
  dsimp only
  step
  step
  step
  refine BldM.safe_bind (symbolCompose_safe h1) fun k hk => ?_
  exact BldM.safe_pure ⟨by has, shaped_Pair.2 ⟨hk.mono (by decide +kernel), h3⟩⟩
theorem sh_someT {x0 : Token} :
    (fun r : Option Token => r.isSome = true) (some x0) := by
  rfl
theorem sh_noneT  :
    (fun r : Option Token => r = none) (none) := by
  rfl
theorem sh_noneN  :
    (OkO 0) (none) := by
  exact oko_none
theorem sh_nilL  :
    (OkL 0) ([]) := by
  exact okl_nil
theorem sh_endlessName {x0 : Token} :
    BldR.Safe g (endlessName x0) Any := by
  unfold endlessName
  dsimp only
  steps <;> exact BldR.safe_pure trivial
theorem sh_kwargName {x0 : Token} :
    BldR.Safe g (kwargName ext x0) Any := by
  unfold kwargName
  steps
  exact BldR.safe_pure trivial
theorem sh_argsType {x0 : Option Node} (h0 : OkO (ks [.Args]) x0) :
    BldR.Safe g (argsType x0) (ArgsOk (ks [.Args])) := by
  unfold argsType
  refine BldR.safe_bind (P := Any) (BldR.safe_lift BldM.safe_get) fun _ _ => ?_
  split
  · exact BldR.safe_pure trivial
  · exact BldR.safe_pure h0
theorem sh_noParens  :
    (fun r : Option Token × List Node × Option Token => OkL callArgK r.2.1) ((none, [], none)) := by
  exact okl_nil
theorem sh_someParens {x0 : Token} {x1 : List Node} {x2 : Token} (h1 : OkL callArgK x1) :
    (fun r : Option Token × List Node × Option Token => OkL callArgK r.2.1) ((some x0, x1, some x2)) := by
  exact h1
theorem sh_noExc  :
    (fun r : Option Token × Option Node => OkO targetK r.2) ((none, none)) := by
  exact oko_none
theorem sh_someExc {x0 : Token} {x1 : Node} (h1 : Ok targetK x1) :
    (fun r : Option Token × Option Node => OkO targetK r.2) ((some x0, some x1)) := by
  exact oko_some.2 h1
theorem sh_elseTail {x0 : Option Token} {x1 : Option Node} (h1 : OkO stmtK x1) :
    (fun r : Option Token × Option Node => OkO stmtK r.2) ((x0, x1)) := by
  exact h1
theorem sh_elsifTail {x0 : Token} {x1 : Node} {x2 : Token} {x3 : Option Node} {x4 : Option Token × Option Node} (h1 : Ok exprK x1) (h3 : OkO stmtK x3) (h4 : OkO stmtK x4.2) :
    (fun r : Option Token × Option Node => OkO stmtK r.2) ((some x0, some (condition x0 x1 x2 x3 x4.1 x4.2 none))) := by
  refine oko_some.2 ?_
  unfold Builder.condition
  okc shaped_If
theorem sh_plainLabel {x0 : Token} :
    (LabelOk strPartK) (.PlainLabel x0) := by
  trivial
theorem sh_quotedLabel {x0 : Token} {x1 : List Node} {x2 : Token} (h1 : OkL strPartK x1) :
    (LabelOk strPartK) (.QuotedLabel x0 x1 x2) := by
  exact h1
theorem sh_nil {x0 : Token} :
    (Ok (ks [.Nil])) (nil x0) := by
  unfold nil
  okc shaped_Nil
theorem sh_true_ {x0 : Token} :
    (Ok (ks [.True])) (true_ x0) := by
  unfold true_
  okc shaped_True
theorem sh_false_ {x0 : Token} :
    (Ok (ks [.False])) (false_ x0) := by
  unfold false_
  okc shaped_False
theorem sh_line {x0 : Token} :
    (Ok (ks [.Line])) (line x0) := by
  unfold line
  okc shaped_Line
theorem sh_file {x0 : Token} :
    (Ok (ks [.File])) (file x0) := by
  unfold file
  okc shaped_File
theorem sh_self_ {x0 : Token} :
    (Ok (ks [.Self_])) (self_ x0) := by
  unfold self_
  okc shaped_Self_
theorem sh_encoding {x0 : Token} :
    (Ok (ks [.Encoding])) (encoding x0) := by
  unfold encoding
  okc shaped_Encoding
theorem sh_forwardArg {x0 : Token} :
    (Ok (ks [.ForwardArg])) (forwardArg x0) := by
  unfold forwardArg
  okc shaped_ForwardArg
theorem sh_forwardedArgs {x0 : Token} :
    (Ok (ks [.ForwardedArgs])) (forwardedArgs x0) := by
  unfold forwardedArgs
  okc shaped_ForwardedArgs
theorem sh_stringInternal {x0 : Token} :
    (Ok (ks [.Str])) (stringInternal x0) := by
  unfold stringInternal
  okc shaped_Str
theorem sh_integer {x0 : Token} :
    Res.Safe g (integer x0) (Ok (ks [.Int])) := by
  unfold integer
  steps
  fin shaped_Int
theorem sh_float {x0 : Token} :
    Res.Safe g (float x0) (Ok (ks [.Float])) := by
  unfold float
  steps
  fin shaped_Float
theorem sh_rational {x0 : Token} :
    Res.Safe g (rational x0) (Ok (ks [.Rational])) := by
  unfold rational
  steps
  fin shaped_Rational
theorem sh_complex {x0 : Token} :
    Res.Safe g (complex x0) (Ok (ks [.Complex])) := by
  unfold complex
  steps
  fin shaped_Complex
theorem sh_lvar {x0 : Token} :
    Res.Safe g (lvar x0) (Ok (ks [.Lvar])) := by
  unfold lvar
  steps
  fin shaped_Lvar
theorem sh_ivar {x0 : Token} :
    Res.Safe g (ivar x0) (Ok (ks [.Ivar])) := by
  unfold ivar
  steps
  fin shaped_Ivar
theorem sh_gvar {x0 : Token} :
    Res.Safe g (gvar x0) (Ok (ks [.Gvar])) := by
  unfold gvar
  steps
  fin shaped_Gvar
theorem sh_cvar {x0 : Token} :
    Res.Safe g (cvar x0) (Ok (ks [.Cvar])) := by
  unfold cvar
  steps
  fin shaped_Cvar
theorem sh_backRef {x0 : Token} :
    Res.Safe g (backRef x0) (Ok (ks [.BackRef])) := by
  unfold backRef
  steps
  fin shaped_BackRef
theorem sh_const_ {x0 : Token} :
    Res.Safe g (const_ x0) (Ok (ks [.Const])) := by
  unfold const_
  steps
  fin shaped_Const
theorem sh_arg {x0 : Token} :
    BldR.Safe g (arg x0) (Ok (ks [.Arg])) := by
  unfold arg
  steps
  fin shaped_Arg
theorem sh_shadowarg {x0 : Token} :
    BldR.Safe g (shadowarg x0) (Ok (ks [.Shadowarg])) := by
  unfold shadowarg
  steps
  fin shaped_Shadowarg
theorem sh_character {x0 : Token} :
    (Ok (ks [.Str])) (character x0) := by
  unfold character
  okc shaped_Str
theorem sh_symbolInternal {x0 : Token} :
    BldM.Safe g (symbolInternal x0) (Ok (ks [.Sym])) := by
  unfold Builder.symbolInternal
  exact BldM.safe_bind validateSymValue_safe fun _ _ => BldM.safe_pure ⟨by has, shaped_Sym⟩
theorem sh_nthRef {x0 : Token} :
    BldM.Safe g (nthRef x0) (Ok (ks [.NthRef])) := by
  unfold Builder.nthRef
  steps
  all_goals exact BldM.safe_pure ⟨by has, shaped_NthRef⟩
theorem sh_matchVar {x0 : Token} :
    BldR.Safe g (matchVar ext x0) (Ok (ks [.MatchVar])) := by
  exact matchVar_safe
theorem sh_kwarg {x0 : Token} :
    BldR.Safe g (kwarg x0) (Ok (ks [.Kwarg])) := by
  unfold kwarg
  steps
  fin shaped_Kwarg
theorem sh_pairLabel {x0 : Token} :
    BldM.Safe g (pairLabel ext x0) (Ok (ks [.Pair])) := by
  unfold pairLabel
  steps
  · exact BldM.safe_bind ((sh_accessible (m := ks [.Lvar]) ⟨by has, shaped_Lvar⟩).imp (P' := Ok pairValueK) fun _ h => h.mono (by decide +kernel)) fun v hv => sh_pairKeyword hv
  · exact BldM.safe_bind ((sh_accessible (m := ks [.Const]) ⟨by has, shaped_Const.2 oko_none⟩).imp (P' := Ok pairValueK) fun _ h => h.mono (by decide +kernel)) fun v hv => sh_pairKeyword hv
theorem sh_constFetch {x0 : Node} {x1 : Token} {x2 : Token} (h0 : Ok primaryK x0) :
    Res.Safe g (constFetch x0 x1 x2) (Ok (ks [.Const])) := by
  unfold constFetch
  steps
  fin shaped_Const
theorem sh_constGlobal {x0 : Token} {x1 : Token} :
    Res.Safe g (constGlobal x0 x1) (Ok (ks [.Const])) := by
  unfold constGlobal
  dsimp only
  step
  exact Res.safe_pure ⟨by has, shaped_Const.2 (oko_some.2 ⟨by has, shaped_Cbase⟩)⟩
theorem sh_optarg {x0 : Token} {x1 : Token} {x2 : Node} (h2 : Ok valueK x2) :
    BldR.Safe g (optarg x0 x1 x2) (Ok (ks [.Optarg])) := by
  unfold optarg
  steps
  fin shaped_Optarg
theorem sh_kwnilarg {x0 : Token} {x1 : Token} :
    (Ok (ks [.Kwnilarg])) (kwnilarg x0 x1) := by
  unfold kwnilarg
  okc shaped_Kwnilarg
theorem sh_alias {x0 : Token} {x1 : Node} {x2 : Node} (h1 : Ok (ks [.Sym, .Dsym, .Gvar]) x1) (h2 : Ok (ks [.Sym, .Dsym, .Gvar, .BackRef]) x2) :
    (Ok (ks [.Alias])) (Builder.alias x0 x1 x2) := by
  unfold Builder.alias
  okc shaped_Alias
theorem sh_pair {x0 : Node} {x1 : Token} {x2 : Node} (h0 : Ok valueK x0) (h2 : Ok valueK x2) :
    (Ok (ks [.Pair])) (pair x0 x1 x2) := by
  unfold pair
  okc shaped_Pair
theorem sh_kwsplat {x0 : Token} {x1 : Node} (h1 : Ok valueK x1) :
    (Ok (ks [.Kwsplat])) (kwsplat x0 x1) := by
  unfold kwsplat
  okc shaped_Kwsplat
theorem sh_multiAssign {x0 : Node} {x1 : Token} {x2 : Node} (h0 : Ok (ks [.Mlhs]) x0) (h2 : Ok rhsK x2) :
    (Ok (ks [.Masgn])) (multiAssign x0 x1 x2) := by
  unfold multiAssign
  okc shaped_Masgn
theorem sh_defClass {x0 : Token} {x1 : Node} {x2 : Option Token} {x3 : Option Node} {x4 : Option Node} {x5 : Token} (h1 : Ok (ks [.Const]) x1) (h3 : OkO exprK x3) (h4 : OkO bodyK x4) :
    (Ok (ks [.Class])) (defClass x0 x1 x2 x3 x4 x5) := by
  unfold defClass
  okc shaped_Class
theorem sh_defSclass {x0 : Token} {x1 : Token} {x2 : Node} {x3 : Option Node} {x4 : Token} (h2 : Ok exprOrVoidK x2) (h3 : OkO bodyK x3) :
    (Ok (ks [.SClass])) (defSclass x0 x1 x2 x3 x4) := by
  unfold defSclass
  okc shaped_SClass
theorem sh_defModule {x0 : Token} {x1 : Node} {x2 : Option Node} {x3 : Token} (h1 : Ok (ks [.Const]) x1) (h2 : OkO bodyK x2) :
    (Ok (ks [.Module])) (defModule x0 x1 x2 x3) := by
  unfold defModule
  okc shaped_Module
theorem sh_defMethod {x0 : Token} {x1 : Token} {x2 : Option Node} {x3 : Option Node} {x4 : Token} (h2 : OkO (ks [.Args]) x2) (h3 : OkO bodyK x3) :
    BldR.Safe g (defMethod x0 x1 x2 x3 x4) (Ok (ks [.Def])) := by
  unfold defMethod
  steps
  fin shaped_Def
theorem sh_defSingleton {x0 : Token} {x1 : Node} {x2 : Token} {x3 : Token} {x4 : Option Node} {x5 : Option Node} {x6 : Token} (h1 : Ok defineeK x1) (h4 : OkO (ks [.Args]) x4) (h5 : OkO bodyK x5) :
    BldR.Safe g (defSingleton x0 x1 x2 x3 x4 x5 x6) (Ok (ks [.Defs])) := by
  unfold defSingleton
  steps
  fin shaped_Defs
theorem sh_indexAsgn {x0 : Node} {x1 : Token} {x2 : List Node} {x3 : Token} (h0 : Ok primaryK x0) (h2 : OkL callArgK x2) :
    (Ok (ks [.IndexAsgnT])) (indexAsgn x0 x1 x2 x3) := by
  unfold indexAsgn
  okc shaped_IndexAsgn
theorem sh_ternary {x0 : Node} {x1 : Token} {x2 : Node} {x3 : Token} {x4 : Node} (h0 : Ok valueK x0) (h2 : Ok valueOrVoidK x2) (h4 : Ok valueOrVoidK x4) :
    (Ok (ks [.IfTernary])) (ternary x0 x1 x2 x3 x4) := by
  unfold ternary
  okc shaped_IfTernary
theorem sh_case {x0 : Token} {x1 : Option Node} {x2 : List Node} {x3 : Option Token} {x4 : Option Node} {x5 : Token} (h1 : OkO exprK x1) (h2 : OkL (ks [.When]) x2) (n2 : x2 ≠ []) (h4 : OkO stmtK x4) :
    (Ok (ks [.Case])) (Builder.case x0 x1 x2 x3 x4 x5) := by
  unfold Builder.case
  okc shaped_Case
theorem sh_for_ {x0 : Token} {x1 : Node} {x2 : Token} {x3 : Node} {x4 : Token} {x5 : Option Node} {x6 : Token} (h1 : Ok (targetK ||| ks [.Mlhs]) x1) (h3 : Ok exprK x3) (h5 : OkO stmtK x5) :
    (Ok (ks [.For])) (for_ x0 x1 x2 x3 x4 x5 x6) := by
  unfold for_
  okc shaped_For
theorem sh_preexe {x0 : Token} {x1 : Token} {x2 : Option Node} {x3 : Token} (h2 : OkO topK x2) :
    (Ok (ks [.Preexe])) (preexe x0 x1 x2 x3) := by
  unfold preexe
  okc shaped_Preexe
theorem sh_postexe {x0 : Token} {x1 : Token} {x2 : Option Node} {x3 : Token} (h2 : OkO stmtK x2) :
    (Ok (ks [.Postexe])) (postexe x0 x1 x2 x3) := by
  unfold postexe
  okc shaped_Postexe
theorem sh_matchPattern {x0 : Node} {x1 : Token} {x2 : Node} (h0 : Ok valueOrVoidK x0) (h2 : Ok patternK x2) :
    (Ok (ks [.MatchPattern])) (matchPattern x0 x1 x2) := by
  unfold matchPattern
  okc shaped_MatchPattern
theorem sh_matchPatternP {x0 : Node} {x1 : Token} {x2 : Node} (h0 : Ok valueOrVoidK x0) (h2 : Ok patternK x2) :
    (Ok (ks [.MatchPatternP])) (matchPatternP x0 x1 x2) := by
  unfold matchPatternP
  okc shaped_MatchPatternP
theorem sh_ifGuard {x0 : Token} {x1 : Node} (h1 : Ok exprK x1) :
    (Ok (ks [.IfGuard])) (ifGuard x0 x1) := by
  unfold ifGuard
  okc shaped_IfGuard
theorem sh_unlessGuard {x0 : Token} {x1 : Node} (h1 : Ok exprK x1) :
    (Ok (ks [.UnlessGuard])) (unlessGuard x0 x1) := by
  unfold unlessGuard
  okc shaped_UnlessGuard
theorem sh_constPattern {x0 : Node} {x1 : Token} {x2 : Node} {x3 : Token} (h0 : Ok (ks [.Const]) x0) (h2 : Ok (ks [.ArrayPattern, .FindPattern, .HashPattern, .ArrayPatternWithTail]) x2) :
    (Ok (ks [.ConstPattern])) (constPattern x0 x1 x2 x3) := by
  unfold constPattern
  okc shaped_ConstPattern
theorem sh_pin {x0 : Token} {x1 : Node} (h1 : Ok pinnedK x1) :
    (Ok (ks [.Pin])) (pin x0 x1) := by
  unfold pin
  okc shaped_Pin
theorem sh_matchAlt {x0 : Node} {x1 : Token} {x2 : Node} (h0 : Ok patternK x0) (h2 : Ok patternK x2) :
    (Ok (ks [.MatchAlt])) (matchAlt x0 x1 x2) := by
  unfold matchAlt
  okc shaped_MatchAlt
theorem sh_matchAs {x0 : Node} {x1 : Token} {x2 : Node} (h0 : Ok patternK x0) (h2 : Ok (ks [.MatchVar]) x2) :
    (Ok (ks [.MatchAs])) (matchAs x0 x1 x2) := by
  unfold matchAs
  okc shaped_MatchAs
theorem sh_matchNilPattern {x0 : Token} {x1 : Token} :
    (Ok (ks [.MatchNilPattern])) (matchNilPattern x0 x1) := by
  unfold matchNilPattern
  okc shaped_MatchNilPattern
theorem sh_wordsCompose {x0 : Token} {x1 : List Node} {x2 : Token} (h1 : OkL valueSplatK x1) :
    (Ok (ks [.Array])) (wordsCompose x0 x1 x2) := by
  unfold wordsCompose
  okc shaped_Array
theorem sh_splat {x0 : Token} {x1 : Option Node} (h1 : OkO splattedK x1) :
    (Ok (ks [.Splat])) (splat x0 x1) := by
  unfold splat
  okc shaped_Splat
theorem sh_blockPass {x0 : Token} {x1 : Option Node} (h1 : OkO valueK x1) :
    (Ok (ks [.BlockPass])) (blockPass x0 x1) := by
  unfold blockPass
  okc shaped_BlockPass
theorem sh_rangeInclusive {x0 : Option Node} {x1 : Token} {x2 : Option Node} (h0 : OkO valueK x0) (h2 : OkO valueK x2) :
    (Ok (ks [.Irange])) (rangeInclusive x0 x1 x2) := by
  unfold rangeInclusive
  okc shaped_Irange
theorem sh_rangeExclusive {x0 : Option Node} {x1 : Token} {x2 : Option Node} (h0 : OkO valueK x0) (h2 : OkO valueK x2) :
    (Ok (ks [.Erange])) (rangeExclusive x0 x1 x2) := by
  unfold rangeExclusive
  okc shaped_Erange
theorem sh_restarg {x0 : Token} {x1 : Option Token} :
    BldR.Safe g (restarg x0 x1) (Ok (ks [.Restarg])) := by
  unfold Builder.restarg
  refine BldR.safe_bind (P := Any) checkedName_safe fun _ _ => ?_
  exact BldR.safe_pure ⟨by has, shaped_Restarg⟩
theorem sh_kwrestarg {x0 : Token} {x1 : Option Token} :
    BldR.Safe g (kwrestarg x0 x1) (Ok (ks [.Kwrestarg])) := by
  unfold Builder.kwrestarg
  refine BldR.safe_bind (P := Any) checkedName_safe fun _ _ => ?_
  exact BldR.safe_pure ⟨by has, shaped_Kwrestarg⟩
theorem sh_blockarg {x0 : Token} {x1 : Option Token} :
    BldR.Safe g (blockarg x0 x1) (Ok (ks [.Blockarg])) := by
  unfold Builder.blockarg
  dsimp only
  step
  steps
  all_goals first
    | exact BldR.safe_pure ⟨by has, shaped_Blockarg⟩
    | exact BldR.safe_bind (P := Any) (BldR.safe_pure trivial) fun _ _ => BldR.safe_pure ⟨by has, shaped_Blockarg⟩
theorem sh_unaryNum {x0 : Token} {x1 : Node} (h1 : Ok numericK x1) :
    Res.Safe g (unaryNum x0 x1) (Ok numericK) := by
  have hk := h1.1
  unfold numericK at hk
  simp only [has_ks, has_nil, or_false] at hk
  unfold unaryNum
  rcases hk with hk | hk | hk | hk
  · obtain ⟨_, _, _, rfl⟩ := kind_Int hk; step; exact Res.safe_pure ⟨by has, shaped_Int⟩
  · obtain ⟨_, _, _, rfl⟩ := kind_Float hk; step; exact Res.safe_pure ⟨by has, shaped_Float⟩
  · obtain ⟨_, _, _, rfl⟩ := kind_Rational hk; step; exact Res.safe_pure ⟨by has, shaped_Rational⟩
  · obtain ⟨_, _, _, rfl⟩ := kind_Complex hk; step; exact Res.safe_pure ⟨by has, shaped_Complex⟩
theorem sh_symbol {x0 : Token} {x1 : Token} :
    BldM.Safe g (symbol x0 x1) (Ok (ks [.Sym])) := by
  unfold Builder.symbol
  exact BldM.safe_bind validateSymValue_safe fun _ _ => BldM.safe_pure ⟨by has, shaped_Sym⟩
theorem sh_logical_And {x0 : Node} {x1 : Token} {x2 : Node} (h0 : Ok exprOrVoidK x0) (h2 : Ok exprOrVoidK x2) :
    BldR.Safe g (logicalOp .And x0 x1 x2) (Ok (ks [.And])) := by
  unfold logicalOp
  refine BldR.safe_bind valueExpr_safe fun _ hv => ?_
  exact BldR.safe_pure ⟨by has, shaped_And.2 ⟨h0.value hv (by decide +kernel), h2.mono (by decide +kernel)⟩⟩
theorem sh_logical_Or {x0 : Node} {x1 : Token} {x2 : Node} (h0 : Ok exprOrVoidK x0) (h2 : Ok exprOrVoidK x2) :
    BldR.Safe g (logicalOp .Or x0 x1 x2) (Ok (ks [.Or])) := by
  unfold logicalOp
  refine BldR.safe_bind valueExpr_safe fun _ hv => ?_
  exact BldR.safe_pure ⟨by has, shaped_Or.2 ⟨h0.value hv (by decide +kernel), h2.mono (by decide +kernel)⟩⟩
theorem sh_binaryOp {x0 : Node} {x1 : Token} {x2 : Node} (h0 : Ok valueOrVoidK x0) (h2 : Ok valueOrVoidK x2) :
    BldR.Safe g (binaryOp x0 x1 x2) (Ok (ks [.Send])) := by
  unfold binaryOp
  refine BldR.safe_bind valueExpr_safe fun _ hv => ?_
  refine BldR.safe_bind valueExpr_safe fun _ hw => ?_
  step
  exact BldR.safe_pure ⟨by has, shaped_Send.2 ⟨oko_some.2 (h0.value hv (by decide +kernel)), okl_one (h2.value hw (by decide +kernel))⟩⟩
theorem sh_unaryOp {x0 : Token} {x1 : Node} (h1 : Ok exprOrVoidK x1) :
    BldR.Safe g (unaryOp x0 x1) (Ok (ks [.Send0])) := by
  unfold unaryOp
  refine BldR.safe_bind valueExpr_safe fun _ hv => ?_
  step
  exact BldR.safe_pure ⟨by has, shaped_Send.2 ⟨oko_some.2 (h1.value hv (by decide +kernel)), okl_nil⟩⟩
theorem sh_matchOp {x0 : Node} {x1 : Token} {x2 : Node} (h0 : Ok valueOrVoidK x0) (h2 : Ok valueOrVoidK x2) :
    BldR.Safe g (matchOp ext x0 x1 x2) (Ok (ks [.Send, .MatchWithLvasgn])) := by
  unfold matchOp
  refine BldR.safe_bind valueExpr_safe fun _ hv => ?_
  refine BldR.safe_bind valueExpr_safe fun _ hw => ?_
  dsimp only
  refine BldR.safe_bind (BldR.safe_lift (staticRegexpCaptures_safe (n := x0))) fun c hc => ?_
  split
  · step
    exact BldR.safe_pure ⟨by has, shaped_MatchWithLvasgn.2 ⟨⟨hc nofun, h0.2⟩, h2.value hw (by decide +kernel)⟩⟩
  · exact BldR.safe_pure ⟨by has, shaped_Send.2 ⟨oko_some.2 (h0.value hv (by decide +kernel)), okl_one (h2.value hw (by decide +kernel))⟩⟩
theorem sh_notOp {x0 : Token} {x1 : Node} (h1 : Ok exprOrVoidK x1) :
    BldR.Safe g (notOp x0 none (some x1) none) (Ok (ks [.Send0])) := by
  unfold Builder.notOp
  refine BldR.safe_bind valueExpr_safe fun _ hv => ?_
  exact BldR.safe_pure ⟨by has, shaped_Send.2 ⟨oko_some.2 ((checkCondition_ok (h1.value hv (by decide +kernel))).mono (by decide +kernel)), okl_nil⟩⟩
theorem sh_notParen {x0 : Token} {x1 : Token} {x2 : Node} {x3 : Token} (h2 : Ok exprOrVoidK x2) :
    BldR.Safe g (notOp x0 (some x1) (some x2) (some x3)) (Ok (ks [.Send0])) := by
  unfold Builder.notOp
  refine BldR.safe_bind valueExpr_safe fun _ hv => ?_
  exact BldR.safe_pure ⟨by has, shaped_Send.2 ⟨oko_some.2 ((checkCondition_ok (h2.value hv (by decide +kernel))).mono (by decide +kernel)), okl_nil⟩⟩
theorem sh_notEmpty {x0 : Token} {x1 : Token} {x2 : Token} :
    BldR.Safe g (notOp x0 (some x1) none (some x2)) (Ok (ks [.Send0])) := by
  unfold Builder.notOp
  refine BldR.safe_bind (BldR.safe_lift (BldM.safe_liftR (collectionMap_safe (.inl rfl)))) fun m hm => ?_
  exact BldR.safe_pure ⟨by has, shaped_Send.2 ⟨oko_some.2 ⟨by has, shaped_Begin.2 ⟨okl_nil, by rw [hm.1]; rfl⟩⟩, okl_nil⟩⟩
theorem sh_ifMod {x0 : Node} {x1 : Token} {x2 : Node} (h0 : Ok stmtK x0) (h2 : Ok exprK x2) :
    Res.Safe g (conditionMod (some x0) none x1 x2) (Ok (ks [.IfMod])) := by
  unfold conditionMod
  exact Res.safe_ok (by okc shaped_IfMod)
theorem sh_unlessMod {x0 : Node} {x1 : Token} {x2 : Node} (h0 : Ok stmtK x0) (h2 : Ok exprK x2) :
    Res.Safe g (conditionMod none (some x0) x1 x2) (Ok (ks [.IfMod])) := by
  unfold conditionMod
  exact Res.safe_ok (by okc shaped_IfMod)
theorem sh_loopMod_While {x0 : Node} {x1 : Token} {x2 : Node} (h0 : Ok stmtK x0) (h2 : Ok exprK x2) :
    (Ok (ks [.While, .WhilePost])) (loopMod .While x0 x1 x2) := by
  cases x0
  case KwBegin => exact ⟨by has, shaped_WhilePost.2 ⟨checkCondition_ok h2, by has, h0.2⟩⟩
  all_goals exact ⟨by has, shaped_While.2 ⟨checkCondition_ok h2, oko_some.2 h0⟩⟩
theorem sh_loop__While {x0 : Token} {x1 : Node} {x2 : Token} {x3 : Option Node} {x4 : Token} (h1 : Ok exprK x1) (h3 : OkO stmtK x3) :
    (Ok (ks [.While])) (loop_ .While x0 x1 x2 x3 x4) := by
  unfold Builder.loop_
  dsimp only
  okc shaped_While
theorem sh_loopMod_Until {x0 : Node} {x1 : Token} {x2 : Node} (h0 : Ok stmtK x0) (h2 : Ok exprK x2) :
    (Ok (ks [.Until, .UntilPost])) (loopMod .Until x0 x1 x2) := by
  cases x0
  case KwBegin => exact ⟨by has, shaped_UntilPost.2 ⟨checkCondition_ok h2, by has, h0.2⟩⟩
  all_goals exact ⟨by has, shaped_Until.2 ⟨checkCondition_ok h2, oko_some.2 h0⟩⟩
theorem sh_loop__Until {x0 : Token} {x1 : Node} {x2 : Token} {x3 : Option Node} {x4 : Token} (h1 : Ok exprK x1) (h3 : OkO stmtK x3) :
    (Ok (ks [.Until])) (loop_ .Until x0 x1 x2 x3 x4) := by
  unfold Builder.loop_
  dsimp only
  okc shaped_Until
theorem sh_condition {x0 : Token} {x1 : Node} {x2 : Token} {x3 : Option Node} {x4 : Option Token × Option Node} {x5 : Token} (h1 : Ok exprK x1) (h3 : OkO stmtK x3) (h4 : OkO stmtK x4.2) :
    (Ok (ks [.If])) (Builder.condition x0 x1 x2 x3 x4.1 x4.2 (some x5)) := by
  unfold Builder.condition
  okc shaped_If
theorem sh_unless_ {x0 : Token} {x1 : Node} {x2 : Token} {x3 : Option Node} {x4 : Option Token} {x5 : Option Node} {x6 : Token} (h1 : Ok exprK x1) (h3 : OkO stmtK x3) (h5 : OkO stmtK x5) :
    (Ok (ks [.If])) (Builder.condition x0 x1 x2 x5 x4 x3 (some x6)) := by
  unfold Builder.condition
  okc shaped_If
theorem sh_when {x0 : Token} {x1 : List Node} {x2 : Token} {x3 : Option Node} (h1 : OkL valueSplatK x1) (n1 : x1 ≠ []) (h3 : OkO stmtK x3) :
    (Ok (ks [.When])) (when x0 x1 x2 x3) := by
  unfold when
  okc shaped_When
theorem sh_inPattern {x0 : Token} {x1 : Node} {x2 : Option Node} {x3 : Token} {x4 : Option Node} (h1 : Ok patternK x1) (h2 : OkO (ks [.IfGuard, .UnlessGuard]) x2) (h4 : OkO stmtK x4) :
    (Ok (ks [.InPattern])) (inPattern x0 x1 x2 x3 x4) := by
  unfold inPattern
  okc shaped_InPattern
theorem sh_caseMatch {x0 : Token} {x1 : Node} {x2 : List Node} {x3 : Option Token} {x4 : Option Node} {x5 : Token} (h1 : Ok exprK x1) (h2 : OkL (ks [.InPattern]) x2) (n2 : x2 ≠ []) (h4 : OkO stmtK x4) :
    (Ok (ks [.CaseMatch])) (caseMatch x0 x1 x2 x3 x4 x5) := by
  unfold Builder.caseMatch
  refine ⟨by has, shaped_CaseMatch.2 ⟨h1, h2, ?_, ne_isEmpty n2⟩⟩
  split
  · exact oko_some.2 ⟨by has, shaped_EmptyElse⟩
  · exact h4.mono (by decide +kernel)
theorem sh_rescueClause {x0 : Token} {x1 : List Node} {x2 : Option Token × Option Node} {x3 : Token} {x4 : Option Node} (h1 : OkL valueSplatK x1) (h2 : OkO targetK x2.2) (h4 : OkO stmtK x4) :
    Res.Safe g (rescueClause x0 x1 x2 x3 x4) (Ok (ks [.RescueBody])) := by
  unfold rescueClause
  split
  · unfold rescueBody
    exact Res.safe_ok (by okc shaped_RescueBody)
  · next hne =>
    refine Res.safe_bind (sh_array (.inr hne) h1) fun a ha => ?_
    unfold rescueBody
    exact Res.safe_pure ⟨by has, shaped_RescueBody.2 ⟨oko_some.2 ha, h2, h4⟩⟩
theorem sh_rescueModOpt {x0 : Node} {x1 : Token} {x2 : Node} (h0 : Ok stmtK x0) (h2 : Ok stmtK x2) :
    Res.Safe g (rescueMod x0 x1 x2) (fun r => OkO (ks [.Rescue]) r ∧ r.isSome = true) := by
  exact rescueMod_safe h0 h2
theorem sh_rescueMod {x0 : Node} {x1 : Token} {x2 : Node} (h0 : Ok stmtK x0) (h2 : Ok stmtK x2) :
    Res.Safe g (rescueMod! x0 x1 x2) (Ok (ks [.Rescue])) := by
  unfold rescueMod!
  refine Res.safe_bind (rescueMod_safe h0 h2) fun r hr => ?_
  split
  · exact Res.safe_pure (oko_some.1 hr.1)
  · step
theorem sh_beginKeyword {x0 : Token} {x1 : Option Node} {x2 : Token} (h1 : OkO bodyK x1) :
    (Ok (ks [.KwBegin])) (beginKeyword x0 x1 x2) := by
  unfold Builder.beginKeyword
  dsimp only
  split
  · have := (shaped_Begin.1 (oko_some.1 h1).2).1
    exact ⟨by has, shaped_KwBegin.2 (this.mono (by decide +kernel))⟩
  · exact ⟨by has, shaped_KwBegin.2 (okl_one ((oko_some.1 h1).mono (by decide +kernel)))⟩
  · exact ⟨by has, shaped_KwBegin.2 okl_nil⟩
theorem sh_bodystmtElse {x0 : Option Node} {x1 : List Node} {x2 : Token} {x3 : Option Node} {x4 : Option Token} {x5 : Option Node} (h0 : OkO stmtK x0) (h1 : OkL (ks [.RescueBody]) x1) (h3 : OkO stmtK x3) (h5 : OkO stmtK x5) :
    BldR.Safe g (bodystmtElse x0 x1 x2 x3 x4 x5) (OkO bodyK) := by
  unfold Grammar.bodystmtElse
  split
  · step
  · next hne =>
    refine BldR.safe_lift (BldM.safe_liftR (beginBody_safe h0 h1 (fun t o e => ?_) (fun t o e => ?_)))
    · cases e; exact ⟨h3, by simpa using hne⟩
    · cases x4 <;> cases e; exact h5
theorem sh_bodystmt {x0 : Option Node} {x1 : List Node} {x2 : Option Token} {x3 : Option Node} (h0 : OkO stmtK x0) (h1 : OkL (ks [.RescueBody]) x1) (h3 : OkO stmtK x3) :
    Res.Safe g (beginBody x0 x1 none (x2.map fun t => (t, x3))) (OkO bodyK) := by
  refine beginBody_safe h0 h1 nofun fun t o e => ?_
  cases x2 <;> cases e; exact h3
theorem sh_singletonExpr {x0 : Node} (h0 : Ok exprOrVoidK x0) :
    BldR.Safe g (singletonExpr x0) (Ok defineeK) := by
  unfold Grammar.singletonExpr
  split
  all_goals first
    | exact BldR.safe_err
    | skip
  rename_i a1 a2 a3 a4 a5 a6 a7 a8 a9 a10 a11 a12 a13
  refine BldR.safe_bind valueExpr_safe fun _ hv => BldR.safe_pure ?_
  refine ⟨?_, h0.2⟩
  have h1 := (h0.value hv (m' := exprK) (by decide +kernel)).1
  unfold defineeK
  refine has_without.2 ⟨h1, ?_⟩
  unfold stringsK numericK symK
  simp only [has_or, has_ks, has_nil, or_false]
  rintro ((((hk | hk | hk) | (hk | hk | hk | hk)) | (hk | hk)) | (hk | hk | hk | hk))
  · obtain ⟨_, _, _, _, rfl⟩ := kind_Str hk; exact a5 _ _ _ _ rfl
  · obtain ⟨_, _, _, _, rfl⟩ := kind_Dstr hk; exact a6 _ _ _ _ rfl
  · obtain ⟨_, _, _, _, rfl⟩ := kind_Heredoc hk; exact a9 _ _ _ _ rfl
  · obtain ⟨_, _, _, rfl⟩ := kind_Int hk; exact a1 _ _ _ rfl
  · obtain ⟨_, _, _, rfl⟩ := kind_Float hk; exact a2 _ _ _ rfl
  · obtain ⟨_, _, _, rfl⟩ := kind_Rational hk; exact a3 _ _ _ rfl
  · obtain ⟨_, _, _, rfl⟩ := kind_Complex hk; exact a4 _ _ _ rfl
  · obtain ⟨_, _, _, _, rfl⟩ := kind_Sym hk; exact a7 _ _ _ _ rfl
  · obtain ⟨_, _, _, _, rfl⟩ := kind_Dsym hk; exact a8 _ _ _ _ rfl
  · obtain ⟨_, _, _, _, rfl⟩ := kind_XHeredoc hk; exact a10 _ _ _ _ rfl
  · obtain ⟨_, _, _, _, _, rfl⟩ := kind_Regexp hk; exact a11 _ _ _ _ _ rfl
  · obtain ⟨_, _, _, _, rfl⟩ := kind_Array hk; exact a12 _ _ _ _ rfl
  · obtain ⟨_, _, _, _, rfl⟩ := kind_Hash hk; exact a13 _ _ _ _ rfl
theorem sh_constOpAssignable {x0 : Node} (h0 : Ok (ks [.Const]) x0) :
    Res.Safe g (constOpAssignable x0) (Ok (ks [.CasgnT])) := by
  have hk := h0.1
  simp only [has_ks, has_nil, or_false] at hk
  obtain ⟨_, _, _, _, _, rfl⟩ := kind_Const hk
  exact Res.safe_ok ⟨by has, shaped_Casgn.2 ⟨shaped_Const.1 h0.2, oko_none⟩⟩
theorem sh_assign {x0 : Node} {x1 : Token} {x2 : Node} (h0 : Ok targetK x0) (h2 : Ok rhsK x2) :
    Res.Safe g (assign x0 x1 x2) (Ok (assignedK ||| ks [.Send, .CSend])) := by
  have hk := h0.1
  unfold targetK at hk
  simp only [has_ks, has_nil, or_false] at hk
  rcases hk with hk | hk | hk | hk | hk | hk | hk | hk
  · obtain ⟨_, _, _, _, _, rfl, -⟩ := kind_LvasgnT hk
    exact Res.safe_ok ⟨by has, shaped_Lvasgn.2 (oko_some.2 h2)⟩
  · obtain ⟨_, _, _, _, _, rfl, -⟩ := kind_IvasgnT hk
    exact Res.safe_ok ⟨by has, shaped_Ivasgn.2 (oko_some.2 h2)⟩
  · obtain ⟨_, _, _, _, _, rfl, -⟩ := kind_GvasgnT hk
    exact Res.safe_ok ⟨by has, shaped_Gvasgn.2 (oko_some.2 h2)⟩
  · obtain ⟨_, _, _, _, _, rfl, -⟩ := kind_CvasgnT hk
    exact Res.safe_ok ⟨by has, shaped_Cvasgn.2 (oko_some.2 h2)⟩
  · obtain ⟨_, _, _, _, _, _, _, rfl, -⟩ := kind_CasgnT hk
    exact Res.safe_ok ⟨by has, shaped_Casgn.2 ⟨(shaped_Casgn.1 h0.2).1, oko_some.2 h2⟩⟩
  · obtain ⟨_, _, _, _, _, _, _, rfl, -⟩ := kind_IndexAsgnT hk
    exact Res.safe_ok ⟨by has, shaped_IndexAsgn.2 ⟨(shaped_IndexAsgn.1 h0.2).1, (shaped_IndexAsgn.1 h0.2).2.1, oko_some.2 h2⟩⟩
  · obtain ⟨_, _, l, _, _, _, _, _, _, rfl, he⟩ := kind_Send0 hk
    unfold Builder.assign
    dsimp only
    rw [if_pos he]
    exact Res.safe_ok ⟨by has, shaped_Send.2 ⟨(shaped_Send.1 h0.2).1, okl_one (h2.mono (by decide +kernel))⟩⟩
  · obtain ⟨_, _, l, _, _, _, _, _, _, rfl, he⟩ := kind_CSend0 hk
    unfold Builder.assign
    dsimp only
    rw [if_pos he]
    exact Res.safe_ok ⟨by has, shaped_CSend.2 ⟨(shaped_CSend.1 h0.2).1, okl_one (h2.mono (by decide +kernel))⟩⟩
theorem sh_opAssign {x0 : Node} {x1 : Token} {x2 : Node} (h0 : Ok (ks [.LvasgnT, .IvasgnT, .GvasgnT, .CvasgnT, .CasgnT, .Send0, .CSend0, .Index, .BackRef, .NthRef]) x0) (h2 : Ok rhsK x2) :
    BldR.Safe g (opAssign x0 x1 x2) (Ok opAsgnK) := by
  unfold Builder.opAssign
  step
  dsimp only
  refine BldR.safe_bind (opAssignLhs_safe h0) fun r hr => ?_
  repeat' split
  · exact BldR.safe_pure ⟨by has, shaped_AndAsgn.2 ⟨hr, h2⟩⟩
  · exact BldR.safe_pure ⟨by has, shaped_OrAsgn.2 ⟨hr, h2⟩⟩
  · exact BldR.safe_pure ⟨by has, shaped_OpAsgn.2 ⟨hr, h2⟩⟩
theorem sh_defEndless {x0 : Token} {x1 : Token} {x2 : Option Node} {x3 : Token} {x4 : Option Node} (h2 : OkO (ks [.Args]) x2) (h4 : OkO bodyK x4) (n4 : x4.isSome = true) :
    BldR.Safe g (defEndlessMethod x0 x1 x2 x3 x4) (Ok (ks [.Def])) := by
  obtain ⟨n, rfl⟩ := Option.isSome_iff_exists.1 n4
  unfold defEndlessMethod
  simp only [maybeExpr, Option.map_some]
  steps
  fin shaped_Def
theorem sh_defEndlessSingleton {x0 : Token} {x1 : Node} {x2 : Token} {x3 : Token} {x4 : Option Node} {x5 : Token} {x6 : Option Node} (h1 : Ok defineeK x1) (h4 : OkO (ks [.Args]) x4) (h6 : OkO bodyK x6) (n6 : x6.isSome = true) :
    BldR.Safe g (defEndlessSingleton x0 x1 x2 x3 x4 x5 x6) (Ok (ks [.Defs])) := by
  obtain ⟨n, rfl⟩ := Option.isSome_iff_exists.1 n6
  unfold Builder.defEndlessSingleton
  simp only [maybeExpr, Option.map_some]
  steps
  fin shaped_Defs
theorem sh_undefMethod {x0 : Token} {x1 : List Node} (h1 : OkL symK x1) (n1 : x1 ≠ []) :
    (Ok (ks [.Undef])) (undefMethod x0 x1) := by
  unfold undefMethod
  okc shaped_Undef
theorem sh_kwoptarg {x0 : Token} {x1 : Node} (h1 : Ok valueK x1) :
    BldR.Safe g (kwoptarg x0 x1) (Ok (ks [.Kwoptarg])) := by
  unfold kwoptarg
  steps
  fin shaped_Kwoptarg
theorem sh_lambda {x0 : Token} {x1 : ArgsType} {x2 : Token} {x3 : Option Node} {x4 : Token} (h1 : ArgsOk (ks [.Args]) x1) (h3 : OkO bodyK x3) :
    BldR.Safe g (block (callLambda x0) x2 x1 x3 x4) (Ok blocksK) := by
  exact sh_block_callee ⟨by has, shaped_Lambda⟩ h1 h3
theorem sh_attrAsgn {x0 : Node} {x1 : Token} {x2 : Token} (h0 : Ok receiverK x0) :
    Res.Safe g (attrAsgn x0 x1 x2) (Ok (ks [.Send0, .CSend0])) := by
  exact attrAsgn_safe h0
theorem sh_attrAsgnMasgn {x0 : Node} {x1 : Token} {x2 : Token} (h0 : Ok receiverK x0) :
    BldR.Safe g (attrAsgnMasgn x0 x1 x2) (Ok (ks [.Send0])) := by
  unfold Grammar.attrAsgnMasgn
  split
  · step
  · next ht => exact BldR.safe_lift (BldM.safe_liftR (attrAsgn_send h0 ht))
theorem sh_index {x0 : Node} {x1 : Token} {x2 : List Node} {x3 : Token} (h0 : Ok primaryK x0) (h2 : OkL callArgK x2) :
    Res.Safe g (index x0 x1 x2 x3) (Ok (ks [.Index])) := by
  unfold Builder.index
  refine Res.safe_bind (rewriteHashArgsToKwargs_safe h2) fun r hr => ?_
  exact Res.safe_pure ⟨by has, shaped_Index.2 ⟨h0, hr.1⟩⟩
theorem sh_mlhsInner {x0 : Token} {x1 : Node} {x2 : Token} (h1 : Ok (ks [.Mlhs]) x1) :
    Res.Safe g (mlhsInner x0 x1 x2) (Ok (ks [.Mlhs])) := by
  have hk := h1.1
  simp only [has_ks, has_nil, or_false] at hk
  obtain ⟨items, _, _, _, rfl, hd⟩ := kind_Mlhs hk
  have hs := shaped_Mlhs.1 h1.2
  rw [hd] at hs
  unfold Grammar.mlhsInner
  exact sh_multiLhs_items (by rintro rfl; cases hs.2) hs.1
theorem sh_strings {x0 : List Node} (h0 : OkL stringsK x0) (n0 : x0 ≠ []) :
    Res.Safe g (stringCompose none x0 none) (Ok stringsK) := by
  unfold Builder.stringCompose
  split
  · exact absurd rfl n0
  · exact Res.safe_ok ((okl_cons.1 h0).1)
  · exact Res.safe_ok ((okl_cons.1 h0).1)
  · exact Res.safe_ok ((okl_cons.1 h0).1)
  · unfold stringComposeMany
    refine Res.safe_bind (collectionMap_safe (.inr n0)) fun m hm => ?_
    exact Res.safe_pure ⟨by has, shaped_Dstr.2 (h0.mono (by decide +kernel))⟩
theorem sh_string1 {x0 : Token} {x1 : List Node} {x2 : Token} (h1 : OkL strPartK x1) :
    Res.Safe (indent = 0 ∨ startsHeredoc x0.tokenValue = true) (string1 indent x0 x1 x2) (Ok stringsK) := by
  unfold Grammar.string1
  refine Res.safe_bind (stringCompose_safe h1) fun r hr => ?_
  refine heredocDedent_safe hr.1 ?_
  rintro (hi | hh)
  · exact .inl hi
  · exact .inr (hr.2 hh)
theorem sh_xstring {x0 : Token} {x1 : List Node} {x2 : Token} (h1 : OkL strPartK x1) :
    Res.Safe (indent = 0 ∨ startsHeredoc x0.tokenValue = true) (heredocDedent (xstringCompose x0 x1 x2) indent) (Ok (ks [.Xstr, .XHeredoc])) := by
  refine heredocDedent_safe ?_ ?_
  · unfold xstringCompose
    split
    · exact ⟨by has, shaped_XHeredoc.2 h1⟩
    · exact ⟨by has, shaped_Xstr.2 h1⟩
  · rintro (hi | hh)
    · exact .inl hi
    · right
      unfold xstringCompose
      rw [if_pos hh]
      has
theorem sh_regexp {x0 : Token} {x1 : List Node} {x2 : Token} (h1 : OkL strPartK x1) :
    BldM.Safe g (do { let o ← liftR (regexpOptions x2); regexpCompose ext x0 x1 x2 o }) (Ok (ks [.Regexp])) := by
  refine BldM.safe_bind (BldM.safe_liftR regexpOptions_safe) fun o ho => ?_
  unfold regexpCompose
  dsimp only
  split
  · refine BldM.safe_bind validateStaticRegexp_safe fun _ _ => ?_
    exact BldM.safe_pure ⟨by has, shaped_Regexp.2 ⟨h1, ho⟩⟩
  · refine BldM.safe_bind validateStaticRegexp_safe fun _ _ => ?_
    exact BldM.safe_pure ⟨by has, shaped_Regexp.2 ⟨h1, ho⟩⟩
  · next hn hs =>
    exfalso
    cases o with
    | none => exact hs rfl
    | some o =>
      have hk := (oko_some.1 ho).1
      simp only [has_ks, has_nil, or_false] at hk
      obtain ⟨_, _, rfl⟩ := kind_RegOpt hk
      exact hn _ _ rfl
theorem sh_word {x0 : List Node} (h0 : OkL strPartK x0) (n0 : x0 ≠ []) :
    Res.Safe g (word x0) (Ok (ks [.Str, .Dstr])) := by
  unfold Builder.word
  split
  · exact Res.safe_ok ((okl_cons.1 h0).1.kind (by has))
  · exact Res.safe_ok ((okl_cons.1 h0).1.kind (by has))
  · refine Res.safe_bind (collectionMap_safe (.inr n0)) fun m hm => ?_
    exact Res.safe_pure ⟨by has, shaped_Dstr.2 (h0.mono (by decide +kernel))⟩
theorem sh_symbolsCompose {x0 : Token} {x1 : List Node} {x2 : Token} (h1 : OkL (ks [.Str, .Dstr, .Sym]) x1) :
    BldM.Safe g (symbolsCompose x0 x1 x2) (Ok (ks [.Array])) := by
  unfold Builder.symbolsCompose
  refine BldM.safe_bind (symbolParts_safe h1) fun r hr => ?_
  exact BldM.safe_pure ⟨by has, shaped_Array.2 ⟨hr.mono (by decide +kernel), rfl⟩⟩
theorem sh_symbolCompose {x0 : Token} {x1 : List Node} {x2 : Token} (h1 : OkL strPartK x1) :
    BldM.Safe g (symbolCompose x0 x1 x2) (Ok symK) := by
  exact symbolCompose_safe h1
theorem sh_matchRest {x0 : Token} {x1 : Option Token} :
    BldR.Safe g (matchRest ext x0 x1) (Ok (ks [.MatchRest])) := by
  unfold Builder.matchRest
  split
  · refine BldR.safe_bind (P := OkO (ks [.MatchVar])) ?_ fun r hr => ?_
    · refine (show BldR.Safe g (matchVar ext _ >>= fun a => pure (some a)) _ from ?_)
      exact BldR.safe_bind matchVar_safe fun a ha => BldR.safe_pure (oko_some.2 ha)
    · exact BldR.safe_pure ⟨by has, shaped_MatchRest.2 hr⟩
  · refine BldR.safe_bind (P := OkO (ks [.MatchVar])) (BldR.safe_pure oko_none) fun r hr => ?_
    exact BldR.safe_pure ⟨by has, shaped_MatchRest.2 hr⟩
theorem sh_matchPair {x0 : PKwLabel} {x1 : Node} (h0 : LabelOk strPartK x0) (h1 : Ok pairValueK x1) :
    BldR.Safe g (matchPair x0 x1) (Ok (ks [.Pair])) := by
  unfold Builder.matchPair
  split
  · refine BldR.safe_bind checkDuplicatePatternKey_safe fun _ _ => ?_
    exact BldR.safe_lift (sh_pairKeyword h1)
  · dsimp only
    split
    · refine BldR.safe_bind checkDuplicatePatternKey_safe fun _ _ => ?_
      exact BldR.safe_lift (sh_pairQuoted h0 h1)
    · steps
theorem sh_matchLabel {x0 : PKwLabel} (h0 : LabelOk strPartK x0) :
    BldR.Safe g (matchLabel ext x0) (Ok (ks [.MatchVar])) := by
  unfold Builder.matchLabel
  split
  · unfold matchHashVar
    step
    step
    refine BldR.safe_bind declarePatternVar_safe fun _ _ => ?_
    exact BldR.safe_pure ⟨by has, shaped_MatchVar⟩
  · exact matchHashVarFromStr_safe _
theorem sh_constPatternEmpty {x0 : Node} {x1 : Token} {x2 : Token} (h0 : Ok (ks [.Const]) x0) :
    Res.Safe g (constPatternEmpty x0 x1 x2) (Ok (ks [.ConstPattern])) := by
  unfold Grammar.constPatternEmpty
  refine Res.safe_bind (sh_arrayPattern (.inl rfl) okl_nil) fun r hr => ?_
  exact Res.safe_pure ⟨by has, shaped_ConstPattern.2 ⟨h0, hr.1.mono (by decide +kernel)⟩⟩
theorem sh_callDotOpt {x0 : Node} {x1 : Token} {x2 : Token} {x3 : Option Token × List Node × Option Token} (h0 : Ok receiverK x0) (h3 : OkL callArgK x3.2.1) :
    Res.Safe g (callMethod (some x0) (some x1) (some x2) x3.1 x3.2.1 x3.2.2) (Ok sendsK) := by
  exact (callMethod_safe (oko_some.2 h0) (.inl rfl) h3).imp fun n hn => callK_sends hn
theorem sh_keyword_Yield {x0 : Token} {x1 : List Node} (h1 : OkL callArgK x1) :
    BldR.Safe g (keywordCmd .Yield x0 none x1 none) (Ok (ks [.Yield])) := by
  unfold keywordCmd
  dsimp only
  split
  · steps
  · refine BldR.safe_bind (BldR.safe_lift (BldM.safe_liftR (rewriteHashArgsToKwargs_safe h1))) fun r hr => ?_
    exact BldR.safe_pure ⟨by has, shaped_Yield.2 hr.1⟩
theorem sh_keyword_Super {x0 : Token} {x1 : List Node} (h1 : OkL callArgK x1) :
    BldR.Safe g (keywordCmd .Super x0 none x1 none) (Ok (ks [.Super])) := by
  unfold keywordCmd
  dsimp only
  refine BldR.safe_bind (BldR.safe_lift (BldM.safe_liftR (rewriteHashArgsToKwargs_safe h1))) fun r hr => ?_
  exact BldR.safe_pure ⟨by has, shaped_Super.2 hr.1⟩
theorem sh_keyword_Zsuper {x0 : Token} {x1 : List Node} (h1 : OkL 0 x1) :
    BldR.Safe g (keywordCmd .Zsuper x0 none x1 none) (Ok (ks [.ZSuper])) := by
  unfold keywordCmd
  dsimp only
  refine BldR.safe_bind (P := Any) (BldR.safe_lift (BldM.safe_liftR (Res.safe_ok trivial))) fun r hr => ?_
  exact BldR.safe_pure ⟨by has, shaped_ZSuper⟩
theorem sh_keyword_Redo {x0 : Token} {x1 : List Node} (h1 : OkL 0 x1) :
    BldR.Safe g (keywordCmd .Redo x0 none x1 none) (Ok (ks [.Redo])) := by
  unfold keywordCmd
  dsimp only
  refine BldR.safe_bind (P := Any) (BldR.safe_lift (BldM.safe_liftR (Res.safe_ok trivial))) fun r hr => ?_
  exact BldR.safe_pure ⟨by has, shaped_Redo⟩
theorem sh_keyword_Retry {x0 : Token} {x1 : List Node} (h1 : OkL 0 x1) :
    BldR.Safe g (keywordCmd .Retry x0 none x1 none) (Ok (ks [.Retry])) := by
  unfold keywordCmd
  dsimp only
  refine BldR.safe_bind (P := Any) (BldR.safe_lift (BldM.safe_liftR (Res.safe_ok trivial))) fun r hr => ?_
  exact BldR.safe_pure ⟨by has, shaped_Retry⟩
theorem sh_keyword_Defined {x0 : Token} {x1 : List Node} (h1 : OkL exprOrVoidK x1) (n1 : x1 ≠ []) :
    BldR.Safe g (keywordCmd .Defined x0 none x1 none) (Ok (ks [.Defined])) := by
  unfold keywordCmd
  dsimp only
  refine BldR.safe_bind (P := OkL exprOrVoidK) (BldR.safe_lift (BldM.safe_liftR (Res.safe_ok h1))) fun r hr => ?_
  refine BldR.safe_bind (BldR.safe_lift (BldM.safe_liftR orExpect_safe)) fun v hv => ?_
  exact BldR.safe_pure ⟨by has, shaped_Defined.2 (hr v (List.mem_of_head? hv))⟩
theorem sh_keywordParen_Yield {x0 : Token} {x1 : Token} {x2 : List Node} {x3 : Token} (h2 : OkL callArgK x2) :
    BldR.Safe g (keywordCmd .Yield x0 (some x1) x2 (some x3)) (Ok (ks [.Yield])) := by
  unfold keywordCmd
  dsimp only
  split
  · steps
  · refine BldR.safe_bind (BldR.safe_lift (BldM.safe_liftR (rewriteHashArgsToKwargs_safe h2))) fun r hr => ?_
    exact BldR.safe_pure ⟨by has, shaped_Yield.2 hr.1⟩
theorem sh_keywordParen_Super {x0 : Token} {x1 : Token} {x2 : List Node} {x3 : Token} (h2 : OkL callArgK x2) :
    BldR.Safe g (keywordCmd .Super x0 (some x1) x2 (some x3)) (Ok (ks [.Super])) := by
  unfold keywordCmd
  dsimp only
  refine BldR.safe_bind (BldR.safe_lift (BldM.safe_liftR (rewriteHashArgsToKwargs_safe h2))) fun r hr => ?_
  exact BldR.safe_pure ⟨by has, shaped_Super.2 hr.1⟩
theorem sh_keywordParen_Zsuper {x0 : Token} {x1 : Token} {x2 : List Node} {x3 : Token} (h2 : OkL 0 x2) :
    BldR.Safe g (keywordCmd .Zsuper x0 (some x1) x2 (some x3)) (Ok (ks [.ZSuper])) := by
  unfold keywordCmd
  dsimp only
  refine BldR.safe_bind (P := Any) (BldR.safe_lift (BldM.safe_liftR (Res.safe_ok trivial))) fun r hr => ?_
  exact BldR.safe_pure ⟨by has, shaped_ZSuper⟩
theorem sh_keywordParen_Redo {x0 : Token} {x1 : Token} {x2 : List Node} {x3 : Token} (h2 : OkL 0 x2) :
    BldR.Safe g (keywordCmd .Redo x0 (some x1) x2 (some x3)) (Ok (ks [.Redo])) := by
  unfold keywordCmd
  dsimp only
  refine BldR.safe_bind (P := Any) (BldR.safe_lift (BldM.safe_liftR (Res.safe_ok trivial))) fun r hr => ?_
  exact BldR.safe_pure ⟨by has, shaped_Redo⟩
theorem sh_keywordParen_Retry {x0 : Token} {x1 : Token} {x2 : List Node} {x3 : Token} (h2 : OkL 0 x2) :
    BldR.Safe g (keywordCmd .Retry x0 (some x1) x2 (some x3)) (Ok (ks [.Retry])) := by
  unfold keywordCmd
  dsimp only
  refine BldR.safe_bind (P := Any) (BldR.safe_lift (BldM.safe_liftR (Res.safe_ok trivial))) fun r hr => ?_
  exact BldR.safe_pure ⟨by has, shaped_Retry⟩
theorem sh_keywordParen_Defined {x0 : Token} {x1 : Token} {x2 : List Node} {x3 : Token} (h2 : OkL exprOrVoidK x2) (n2 : x2 ≠ []) :
    BldR.Safe g (keywordCmd .Defined x0 (some x1) x2 (some x3)) (Ok (ks [.Defined])) := by
  unfold keywordCmd
  dsimp only
  refine BldR.safe_bind (P := OkL exprOrVoidK) (BldR.safe_lift (BldM.safe_liftR (Res.safe_ok h2))) fun r hr => ?_
  refine BldR.safe_bind (BldR.safe_lift (BldM.safe_liftR orExpect_safe)) fun v hv => ?_
  exact BldR.safe_pure ⟨by has, shaped_Defined.2 (hr v (List.mem_of_head? hv))⟩

end Verif
