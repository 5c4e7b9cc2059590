import Verif.Lemmas.PlaceRun
/-!
Where the nodes made by the builder's functions lie, given where their arguments lie: first part, functions that make one node.
-/
namespace Verif
open Builder

theorem nil_at  {x0 : Token} {p0 p1 : Nat} (h0 : x0.At p0 p1)  :
    (nil x0).At p0 p1 := by
  unfold nil
  place at_Nil

theorem true_at  {x0 : Token} {p0 p1 : Nat} (h0 : x0.At p0 p1)  :
    (true_ x0).At p0 p1 := by
  unfold true_
  place at_True

theorem false_at  {x0 : Token} {p0 p1 : Nat} (h0 : x0.At p0 p1)  :
    (false_ x0).At p0 p1 := by
  unfold false_
  place at_False

theorem line_at  {x0 : Token} {p0 p1 : Nat} (h0 : x0.At p0 p1)  :
    (line x0).At p0 p1 := by
  unfold line
  place at_Line

theorem file_at  {x0 : Token} {p0 p1 : Nat} (h0 : x0.At p0 p1)  :
    (file x0).At p0 p1 := by
  unfold file
  place at_File

theorem self_at  {x0 : Token} {p0 p1 : Nat} (h0 : x0.At p0 p1)  :
    (self_ x0).At p0 p1 := by
  unfold self_
  place at_Self_

theorem encoding_at  {x0 : Token} {p0 p1 : Nat} (h0 : x0.At p0 p1)  :
    (encoding x0).At p0 p1 := by
  unfold encoding
  place at_Encoding

theorem forwardArg_at  {x0 : Token} {p0 p1 : Nat} (h0 : x0.At p0 p1)  :
    (forwardArg x0).At p0 p1 := by
  unfold forwardArg
  place at_ForwardArg

theorem forwardedArgs_at  {x0 : Token} {p0 p1 : Nat} (h0 : x0.At p0 p1)  :
    (forwardedArgs x0).At p0 p1 := by
  unfold forwardedArgs
  place at_ForwardedArgs

theorem callLambda_at  {x0 : Token} {p0 p1 : Nat} (h0 : x0.At p0 p1)  :
    (callLambda x0).At p0 p1 := by
  unfold callLambda
  place at_Lambda

theorem stringInternal_at  {x0 : Token} {p0 p1 : Nat} (h0 : x0.At p0 p1)  :
    (stringInternal x0).At p0 p1 := by
  unfold stringInternal
  place at_Str

theorem integer_at  {x0 : Token} {p0 p1 : Nat} (h0 : x0.At p0 p1)  :
    Res.Gives (integer x0) (·.At p0 p1) := by
  unfold integer
  exact Res.gives_any fun _ => Res.gives_ok (by place at_Int)

theorem float_at  {x0 : Token} {p0 p1 : Nat} (h0 : x0.At p0 p1)  :
    Res.Gives (float x0) (·.At p0 p1) := by
  unfold float
  exact Res.gives_any fun _ => Res.gives_ok (by place at_Float)

theorem rational_at  {x0 : Token} {p0 p1 : Nat} (h0 : x0.At p0 p1)  :
    Res.Gives (rational x0) (·.At p0 p1) := by
  unfold rational
  exact Res.gives_any fun _ => Res.gives_ok (by place at_Rational)

theorem complex_at  {x0 : Token} {p0 p1 : Nat} (h0 : x0.At p0 p1)  :
    Res.Gives (complex x0) (·.At p0 p1) := by
  unfold complex
  exact Res.gives_any fun _ => Res.gives_ok (by place at_Complex)

theorem lvar_at  {x0 : Token} {p0 p1 : Nat} (h0 : x0.At p0 p1)  :
    Res.Gives (lvar x0) (·.At p0 p1) := by
  unfold lvar
  exact Res.gives_any fun _ => Res.gives_ok (by place at_Lvar)

theorem ivar_at  {x0 : Token} {p0 p1 : Nat} (h0 : x0.At p0 p1)  :
    Res.Gives (ivar x0) (·.At p0 p1) := by
  unfold ivar
  exact Res.gives_any fun _ => Res.gives_ok (by place at_Ivar)

theorem gvar_at  {x0 : Token} {p0 p1 : Nat} (h0 : x0.At p0 p1)  :
    Res.Gives (gvar x0) (·.At p0 p1) := by
  unfold gvar
  exact Res.gives_any fun _ => Res.gives_ok (by place at_Gvar)

theorem cvar_at  {x0 : Token} {p0 p1 : Nat} (h0 : x0.At p0 p1)  :
    Res.Gives (cvar x0) (·.At p0 p1) := by
  unfold cvar
  exact Res.gives_any fun _ => Res.gives_ok (by place at_Cvar)

theorem backRef_at  {x0 : Token} {p0 p1 : Nat} (h0 : x0.At p0 p1)  :
    Res.Gives (backRef x0) (·.At p0 p1) := by
  unfold backRef
  exact Res.gives_any fun _ => Res.gives_ok (by place at_BackRef)

theorem const_at  {x0 : Token} {p0 p1 : Nat} (h0 : x0.At p0 p1)  :
    Res.Gives (const_ x0) (·.At p0 p1) := by
  unfold const_
  exact Res.gives_any fun _ => Res.gives_ok (by place at_Const)

theorem constFetch_at  {x0 : Node} {x1 : Token} {x2 : Token} {p0 p1 p2 p3 : Nat} (h0 : x0.At p0 p1) (h1 : x1.At p1 p2) (h2 : x2.At p2 p3)  :
    Res.Gives (constFetch x0 x1 x2) (·.At p0 p3) := by
  unfold constFetch
  exact Res.gives_any fun _ => Res.gives_ok (by place at_Const)

theorem arg_at  {x0 : Token} {p0 p1 : Nat} (h0 : x0.At p0 p1)  :
    BldR.Gives (arg x0) (·.At p0 p1) := by
  unfold arg
  exact BldR.gives_any fun _ => BldR.gives_any fun _ => BldR.gives_pure (by place at_Arg)

theorem shadowarg_at  {x0 : Token} {p0 p1 : Nat} (h0 : x0.At p0 p1)  :
    BldR.Gives (shadowarg x0) (·.At p0 p1) := by
  unfold shadowarg
  exact BldR.gives_any fun _ => BldR.gives_any fun _ => BldR.gives_pure (by place at_Shadowarg)

theorem optarg_at  {x0 : Token} {x1 : Token} {x2 : Node} {p0 p1 p2 p3 : Nat} (h0 : x0.At p0 p1) (h1 : x1.At p1 p2) (h2 : x2.At p2 p3)  :
    BldR.Gives (optarg x0 x1 x2) (·.At p0 p3) := by
  unfold optarg
  exact BldR.gives_any fun _ => BldR.gives_any fun _ => BldR.gives_pure (by place at_Optarg)

theorem kwnilarg_at  {x0 : Token} {x1 : Token} {p0 p1 p2 : Nat} (h0 : x0.At p0 p1) (h1 : x1.At p1 p2)  :
    (kwnilarg x0 x1).At p0 p2 := by
  unfold kwnilarg
  place at_Kwnilarg

theorem alias_at  {x0 : Token} {x1 : Node} {x2 : Node} {p0 p1 p2 p3 : Nat} (h0 : x0.At p0 p1) (h1 : x1.At p1 p2) (h2 : x2.At p2 p3)  :
    (Builder.alias x0 x1 x2).At p0 p3 := by
  unfold Builder.alias
  place at_Alias

theorem pair_at  {x0 : Node} {x1 : Token} {x2 : Node} {p0 p1 p2 p3 : Nat} (h0 : x0.At p0 p1) (h1 : x1.At p1 p2) (h2 : x2.At p2 p3)  :
    (pair x0 x1 x2).At p0 p3 := by
  unfold pair
  place at_Pair

theorem kwsplat_at  {x0 : Token} {x1 : Node} {p0 p1 p2 : Nat} (h0 : x0.At p0 p1) (h1 : x1.At p1 p2)  :
    (kwsplat x0 x1).At p0 p2 := by
  unfold kwsplat
  place at_Kwsplat

theorem multiAssign_at  {x0 : Node} {x1 : Token} {x2 : Node} {p0 p1 p2 p3 : Nat} (h0 : x0.At p0 p1) (h1 : x1.At p1 p2) (h2 : x2.At p2 p3)  :
    (multiAssign x0 x1 x2).At p0 p3 := by
  unfold multiAssign
  place at_Masgn

theorem defClass_at  {x0 : Token} {x1 : Node} {x2 : Option Token} {x3 : Option Node} {x4 : Option Node} {x5 : Token} {p0 p1 p2 p3 p4 p5 p6 : Nat} (h0 : x0.At p0 p1) (h1 : x1.At p1 p2) (h2 : OTok.At x2 p2 p3) (h3 : ONode.At x3 p3 p4) (h4 : ONode.At x4 p4 p5) (h5 : x5.At p5 p6)  :
    (defClass x0 x1 x2 x3 x4 x5).At p0 p6 := by
  unfold defClass
  place at_Class

theorem defSclass_at  {x0 : Token} {x1 : Token} {x2 : Node} {x3 : Option Node} {x4 : Token} {p0 p1 p2 p3 p4 p5 : Nat} (h0 : x0.At p0 p1) (h1 : x1.At p1 p2) (h2 : x2.At p2 p3) (h3 : ONode.At x3 p3 p4) (h4 : x4.At p4 p5)  :
    (defSclass x0 x1 x2 x3 x4).At p0 p5 := by
  unfold defSclass
  place at_SClass

theorem defModule_at  {x0 : Token} {x1 : Node} {x2 : Option Node} {x3 : Token} {p0 p1 p2 p3 p4 : Nat} (h0 : x0.At p0 p1) (h1 : x1.At p1 p2) (h2 : ONode.At x2 p2 p3) (h3 : x3.At p3 p4)  :
    (defModule x0 x1 x2 x3).At p0 p4 := by
  unfold defModule
  place at_Module

theorem defMethod_at  {x0 : Token} {x1 : Token} {x2 : Option Node} {x3 : Option Node} {x4 : Token} {p0 p1 p2 p3 p4 p5 : Nat} (h0 : x0.At p0 p1) (h1 : x1.At p1 p2) (h2 : ONode.At x2 p2 p3) (h3 : ONode.At x3 p3 p4) (h4 : x4.At p4 p5)  :
    BldR.Gives (defMethod x0 x1 x2 x3 x4) (·.At p0 p5) := by
  unfold defMethod
  exact BldR.gives_any fun _ => BldR.gives_any fun _ => BldR.gives_pure (by place at_Def)

theorem defSingleton_at  {x0 : Token} {x1 : Node} {x2 : Token} {x3 : Token} {x4 : Option Node} {x5 : Option Node} {x6 : Token} {p0 p1 p2 p3 p4 p5 p6 p7 : Nat} (h0 : x0.At p0 p1) (h1 : x1.At p1 p2) (h2 : x2.At p2 p3) (h3 : x3.At p3 p4) (h4 : ONode.At x4 p4 p5) (h5 : ONode.At x5 p5 p6) (h6 : x6.At p6 p7)  :
    BldR.Gives (defSingleton x0 x1 x2 x3 x4 x5 x6) (·.At p0 p7) := by
  unfold defSingleton
  exact BldR.gives_any fun _ => BldR.gives_any fun _ => BldR.gives_pure (by place at_Defs)

theorem indexAsgn_at  {x0 : Node} {x1 : Token} {x2 : List Node} {x3 : Token} {p0 p1 p2 p3 p4 : Nat} (h0 : x0.At p0 p1) (h1 : x1.At p1 p2) (h2 : Nodes.At x2 p2 p3) (h3 : x3.At p3 p4)  :
    (indexAsgn x0 x1 x2 x3).At p0 p4 := by
  unfold indexAsgn
  place at_IndexAsgn

theorem ternary_at  {x0 : Node} {x1 : Token} {x2 : Node} {x3 : Token} {x4 : Node} {p0 p1 p2 p3 p4 p5 : Nat} (h0 : x0.At p0 p1) (h1 : x1.At p1 p2) (h2 : x2.At p2 p3) (h3 : x3.At p3 p4) (h4 : x4.At p4 p5)  :
    (ternary x0 x1 x2 x3 x4).At p0 p5 := by
  unfold ternary
  place at_IfTernary

theorem case_at  {x0 : Token} {x1 : Option Node} {x2 : List Node} {x3 : Option Token} {x4 : Option Node} {x5 : Token} {p0 p1 p2 p3 p4 p5 p6 : Nat} (h0 : x0.At p0 p1) (h1 : ONode.At x1 p1 p2) (h2 : Nodes.At x2 p2 p3) (h3 : OTok.At x3 p3 p4) (h4 : ONode.At x4 p4 p5) (h5 : x5.At p5 p6)  :
    (case x0 x1 x2 x3 x4 x5).At p0 p6 := by
  unfold case
  place at_Case

theorem for_at  {x0 : Token} {x1 : Node} {x2 : Token} {x3 : Node} {x4 : Token} {x5 : Option Node} {x6 : Token} {p0 p1 p2 p3 p4 p5 p6 p7 : Nat} (h0 : x0.At p0 p1) (h1 : x1.At p1 p2) (h2 : x2.At p2 p3) (h3 : x3.At p3 p4) (h4 : x4.At p4 p5) (h5 : ONode.At x5 p5 p6) (h6 : x6.At p6 p7)  :
    (for_ x0 x1 x2 x3 x4 x5 x6).At p0 p7 := by
  unfold for_
  place at_For

theorem preexe_at  {x0 : Token} {x1 : Token} {x2 : Option Node} {x3 : Token} {p0 p1 p2 p3 p4 : Nat} (h0 : x0.At p0 p1) (h1 : x1.At p1 p2) (h2 : ONode.At x2 p2 p3) (h3 : x3.At p3 p4)  :
    (preexe x0 x1 x2 x3).At p0 p4 := by
  unfold preexe
  place at_Preexe

theorem postexe_at  {x0 : Token} {x1 : Token} {x2 : Option Node} {x3 : Token} {p0 p1 p2 p3 p4 : Nat} (h0 : x0.At p0 p1) (h1 : x1.At p1 p2) (h2 : ONode.At x2 p2 p3) (h3 : x3.At p3 p4)  :
    (postexe x0 x1 x2 x3).At p0 p4 := by
  unfold postexe
  place at_Postexe

theorem matchPattern_at  {x0 : Node} {x1 : Token} {x2 : Node} {p0 p1 p2 p3 : Nat} (h0 : x0.At p0 p1) (h1 : x1.At p1 p2) (h2 : x2.At p2 p3)  :
    (matchPattern x0 x1 x2).At p0 p3 := by
  unfold matchPattern
  place at_MatchPattern

theorem matchPatternP_at  {x0 : Node} {x1 : Token} {x2 : Node} {p0 p1 p2 p3 : Nat} (h0 : x0.At p0 p1) (h1 : x1.At p1 p2) (h2 : x2.At p2 p3)  :
    (matchPatternP x0 x1 x2).At p0 p3 := by
  unfold matchPatternP
  place at_MatchPatternP

theorem ifGuard_at  {x0 : Token} {x1 : Node} {p0 p1 p2 : Nat} (h0 : x0.At p0 p1) (h1 : x1.At p1 p2)  :
    (ifGuard x0 x1).At p0 p2 := by
  unfold ifGuard
  place at_IfGuard

theorem unlessGuard_at  {x0 : Token} {x1 : Node} {p0 p1 p2 : Nat} (h0 : x0.At p0 p1) (h1 : x1.At p1 p2)  :
    (unlessGuard x0 x1).At p0 p2 := by
  unfold unlessGuard
  place at_UnlessGuard

theorem constPattern_at  {x0 : Node} {x1 : Token} {x2 : Node} {x3 : Token} {p0 p1 p2 p3 p4 : Nat} (h0 : x0.At p0 p1) (h1 : x1.At p1 p2) (h2 : x2.At p2 p3) (h3 : x3.At p3 p4)  :
    (constPattern x0 x1 x2 x3).At p0 p4 := by
  unfold constPattern
  place at_ConstPattern

theorem pin_at  {x0 : Token} {x1 : Node} {p0 p1 p2 : Nat} (h0 : x0.At p0 p1) (h1 : x1.At p1 p2)  :
    (pin x0 x1).At p0 p2 := by
  unfold pin
  place at_Pin

theorem matchAlt_at  {x0 : Node} {x1 : Token} {x2 : Node} {p0 p1 p2 p3 : Nat} (h0 : x0.At p0 p1) (h1 : x1.At p1 p2) (h2 : x2.At p2 p3)  :
    (matchAlt x0 x1 x2).At p0 p3 := by
  unfold matchAlt
  place at_MatchAlt

theorem matchAs_at  {x0 : Node} {x1 : Token} {x2 : Node} {p0 p1 p2 p3 : Nat} (h0 : x0.At p0 p1) (h1 : x1.At p1 p2) (h2 : x2.At p2 p3)  :
    (matchAs x0 x1 x2).At p0 p3 := by
  unfold matchAs
  place at_MatchAs

theorem matchNilPattern_at  {x0 : Token} {x1 : Token} {p0 p1 p2 : Nat} (h0 : x0.At p0 p1) (h1 : x1.At p1 p2)  :
    (matchNilPattern x0 x1).At p0 p2 := by
  unfold matchNilPattern
  place at_MatchNilPattern

theorem wordsCompose_at  {x0 : Token} {x1 : List Node} {x2 : Token} {p0 p1 p2 p3 : Nat} (h0 : x0.At p0 p1) (h1 : Nodes.At x1 p1 p2) (h2 : x2.At p2 p3)  :
    (wordsCompose x0 x1 x2).At p0 p3 := by
  unfold wordsCompose
  place at_Array

theorem character_at  {x0 : Token} {p0 p1 : Nat} (h0 : x0.At p0 p1) (hs : x0.loc.begin + 1 ≤ x0.loc.stop) :
    (character x0).At p0 p1 := by
  unfold character
  place at_Str

end Verif
