import Verif.Spec.Calls
import Verif.Lemmas.ShapeAbs
/-!
The kinds of nodes the functions called in actions take and give, and that they do.
-/
namespace Verif
open Builder Shape Grammar

/-- Functions that take and give values of fixed descriptions. -/
def Grammar.BFn.mono : BFn → Option (List Abs × Abs)
  | .someT => some ([.tok], .otok false true)
  | .noneT => some ([], .otok true false)
  | .noneN => some ([], .onode 0 true)
  | .nilL => some ([], .nodes 0 false)
  | .endlessName => some ([.tok], .tok)
  | .kwargName => some ([.tok], .tok)
  | .argsType => some ([.onode (ks [.Args]) true], .args (ks [.Args]))
  | .noParens => some ([], .parens callArgK)
  | .someParens => some ([.tok, .nodes callArgK false, .tok], .parens callArgK)
  | .noExc => some ([], .exc targetK)
  | .someExc => some ([.tok, .node targetK], .exc targetK)
  | .elseTail => some ([.otok true true, .onode stmtK true], .tail stmtK)
  | .elsifTail => some ([.tok, .node exprK, .tok, .onode stmtK true, .tail stmtK], .tail stmtK)
  | .plainLabel => some ([.tok], .label strPartK)
  | .quotedLabel => some ([.tok, .nodes strPartK false, .tok], .label strPartK)
  | .nil => some ([.tok], .node (ks [.Nil]))
  | .true_ => some ([.tok], .node (ks [.True]))
  | .false_ => some ([.tok], .node (ks [.False]))
  | .line => some ([.tok], .node (ks [.Line]))
  | .file => some ([.tok], .node (ks [.File]))
  | .self_ => some ([.tok], .node (ks [.Self_]))
  | .encoding => some ([.tok], .node (ks [.Encoding]))
  | .forwardArg => some ([.tok], .node (ks [.ForwardArg]))
  | .forwardedArgs => some ([.tok], .node (ks [.ForwardedArgs]))
  | .stringInternal => some ([.tok], .node (ks [.Str]))
  | .integer => some ([.tok], .node (ks [.Int]))
  | .float => some ([.tok], .node (ks [.Float]))
  | .rational => some ([.tok], .node (ks [.Rational]))
  | .complex => some ([.tok], .node (ks [.Complex]))
  | .lvar => some ([.tok], .node (ks [.Lvar]))
  | .ivar => some ([.tok], .node (ks [.Ivar]))
  | .gvar => some ([.tok], .node (ks [.Gvar]))
  | .cvar => some ([.tok], .node (ks [.Cvar]))
  | .backRef => some ([.tok], .node (ks [.BackRef]))
  | .const_ => some ([.tok], .node (ks [.Const]))
  | .arg => some ([.tok], .node (ks [.Arg]))
  | .shadowarg => some ([.tok], .node (ks [.Shadowarg]))
  | .character => some ([.tok], .node (ks [.Str]))
  | .symbolInternal => some ([.tok], .node (ks [.Sym]))
  | .nthRef => some ([.tok], .node (ks [.NthRef]))
  | .matchVar => some ([.tok], .node (ks [.MatchVar]))
  | .kwarg => some ([.tok], .node (ks [.Kwarg]))
  | .pairLabel => some ([.tok], .node (ks [.Pair]))
  | .constFetch => some ([.node primaryK, .tok, .tok], .node (ks [.Const]))
  | .constGlobal => some ([.tok, .tok], .node (ks [.Const]))
  | .optarg => some ([.tok, .tok, .node valueK], .node (ks [.Optarg]))
  | .kwnilarg => some ([.tok, .tok], .node (ks [.Kwnilarg]))
  | .alias => some ([.tok, .node (ks [.Sym, .Dsym, .Gvar]), .node (ks [.Sym, .Dsym, .Gvar, .BackRef])], .node (ks [.Alias]))
  | .pair => some ([.node valueK, .tok, .node valueK], .node (ks [.Pair]))
  | .kwsplat => some ([.tok, .node valueK], .node (ks [.Kwsplat]))
  | .multiAssign => some ([.node (ks [.Mlhs]), .tok, .node rhsK], .node (ks [.Masgn]))
  | .defClass => some ([.tok, .node (ks [.Const]), .otok true true, .onode exprK true, .onode bodyK true, .tok], .node (ks [.Class]))
  | .defSclass => some ([.tok, .tok, .node exprOrVoidK, .onode bodyK true, .tok], .node (ks [.SClass]))
  | .defModule => some ([.tok, .node (ks [.Const]), .onode bodyK true, .tok], .node (ks [.Module]))
  | .defMethod => some ([.tok, .tok, .onode (ks [.Args]) true, .onode bodyK true, .tok], .node (ks [.Def]))
  | .defSingleton => some ([.tok, .node defineeK, .tok, .tok, .onode (ks [.Args]) true, .onode bodyK true, .tok], .node (ks [.Defs]))
  | .indexAsgn => some ([.node primaryK, .tok, .nodes callArgK false, .tok], .node (ks [.IndexAsgnT]))
  | .ternary => some ([.node valueK, .tok, .node valueOrVoidK, .tok, .node valueOrVoidK], .node (ks [.IfTernary]))
  | .case => some ([.tok, .onode exprK true, .nodes (ks [.When]) true, .otok true true, .onode stmtK true, .tok], .node (ks [.Case]))
  | .for_ => some ([.tok, .node (targetK ||| ks [.Mlhs]), .tok, .node exprK, .tok, .onode stmtK true, .tok], .node (ks [.For]))
  | .preexe => some ([.tok, .tok, .onode topK true, .tok], .node (ks [.Preexe]))
  | .postexe => some ([.tok, .tok, .onode stmtK true, .tok], .node (ks [.Postexe]))
  | .matchPattern => some ([.node valueOrVoidK, .tok, .node patternK], .node (ks [.MatchPattern]))
  | .matchPatternP => some ([.node valueOrVoidK, .tok, .node patternK], .node (ks [.MatchPatternP]))
  | .ifGuard => some ([.tok, .node exprK], .node (ks [.IfGuard]))
  | .unlessGuard => some ([.tok, .node exprK], .node (ks [.UnlessGuard]))
  | .constPattern => some ([.node (ks [.Const]), .tok, .node (ks [.ArrayPattern, .FindPattern, .HashPattern, .ArrayPatternWithTail]), .tok], .node (ks [.ConstPattern]))
  | .pin => some ([.tok, .node pinnedK], .node (ks [.Pin]))
  | .matchAlt => some ([.node patternK, .tok, .node patternK], .node (ks [.MatchAlt]))
  | .matchAs => some ([.node patternK, .tok, .node (ks [.MatchVar])], .node (ks [.MatchAs]))
  | .matchNilPattern => some ([.tok, .tok], .node (ks [.MatchNilPattern]))
  | .wordsCompose => some ([.tok, .nodes valueSplatK false, .tok], .node (ks [.Array]))
  | .splat => some ([.tok, .onode splattedK true], .node (ks [.Splat]))
  | .blockPass => some ([.tok, .onode valueK true], .node (ks [.BlockPass]))
  | .rangeInclusive => some ([.onode valueK true, .tok, .onode valueK true], .node (ks [.Irange]))
  | .rangeExclusive => some ([.onode valueK true, .tok, .onode valueK true], .node (ks [.Erange]))
  | .restarg => some ([.tok, .otok true true], .node (ks [.Restarg]))
  | .kwrestarg => some ([.tok, .otok true true], .node (ks [.Kwrestarg]))
  | .blockarg => some ([.tok, .otok true true], .node (ks [.Blockarg]))
  | .unaryNum => some ([.tok, .node numericK], .node numericK)
  | .symbol => some ([.tok, .tok], .node (ks [.Sym]))
  | .logical .And => some ([.node exprOrVoidK, .tok, .node exprOrVoidK], .node (ks [.And]))
  | .logical .Or => some ([.node exprOrVoidK, .tok, .node exprOrVoidK], .node (ks [.Or]))
  | .binaryOp => some ([.node valueOrVoidK, .tok, .node valueOrVoidK], .node (ks [.Send]))
  | .unaryOp => some ([.tok, .node exprOrVoidK], .node (ks [.Send0]))
  | .matchOp => some ([.node valueOrVoidK, .tok, .node valueOrVoidK], .node (ks [.Send, .MatchWithLvasgn]))
  | .notOp => some ([.tok, .node exprOrVoidK], .node (ks [.Send0]))
  | .notParen => some ([.tok, .tok, .node exprOrVoidK, .tok], .node (ks [.Send0]))
  | .notEmpty => some ([.tok, .tok, .tok], .node (ks [.Send0]))
  | .ifMod => some ([.node stmtK, .tok, .node exprK], .node (ks [.IfMod]))
  | .unlessMod => some ([.node stmtK, .tok, .node exprK], .node (ks [.IfMod]))
  | .loopMod .While => some ([.node stmtK, .tok, .node exprK], .node (ks [.While, .WhilePost]))
  | .loop_ .While => some ([.tok, .node exprK, .tok, .onode stmtK true, .tok], .node (ks [.While]))
  | .loopMod .Until => some ([.node stmtK, .tok, .node exprK], .node (ks [.Until, .UntilPost]))
  | .loop_ .Until => some ([.tok, .node exprK, .tok, .onode stmtK true, .tok], .node (ks [.Until]))
  | .condition => some ([.tok, .node exprK, .tok, .onode stmtK true, .tail stmtK, .tok], .node (ks [.If]))
  | .unless_ => some ([.tok, .node exprK, .tok, .onode stmtK true, .otok true true, .onode stmtK true, .tok], .node (ks [.If]))
  | .when => some ([.tok, .nodes valueSplatK true, .tok, .onode stmtK true], .node (ks [.When]))
  | .inPattern => some ([.tok, .node patternK, .onode (ks [.IfGuard, .UnlessGuard]) true, .tok, .onode stmtK true], .node (ks [.InPattern]))
  | .caseMatch => some ([.tok, .node exprK, .nodes (ks [.InPattern]) true, .otok true true, .onode stmtK true, .tok], .node (ks [.CaseMatch]))
  | .rescueClause => some ([.tok, .nodes valueSplatK false, .exc targetK, .tok, .onode stmtK true], .node (ks [.RescueBody]))
  | .rescueModOpt => some ([.node stmtK, .tok, .node stmtK], .onode (ks [.Rescue]) false)
  | .rescueMod => some ([.node stmtK, .tok, .node stmtK], .node (ks [.Rescue]))
  | .beginKeyword => some ([.tok, .onode bodyK true, .tok], .node (ks [.KwBegin]))
  | .bodystmtElse => some ([.onode stmtK true, .nodes (ks [.RescueBody]) false, .tok, .onode stmtK true, .otok true true, .onode stmtK true], .onode bodyK true)
  | .bodystmt => some ([.onode stmtK true, .nodes (ks [.RescueBody]) false, .otok true true, .onode stmtK true], .onode bodyK true)
  | .singletonExpr => some ([.node exprOrVoidK], .node defineeK)
  | .constOpAssignable => some ([.node (ks [.Const])], .node (ks [.CasgnT]))
  | .assign => some ([.node targetK, .tok, .node rhsK], .node (assignedK ||| ks [.Send, .CSend]))
  | .opAssign => some ([.node (ks [.LvasgnT, .IvasgnT, .GvasgnT, .CvasgnT, .CasgnT, .Send0, .CSend0, .Index, .BackRef, .NthRef]), .tok, .node rhsK], .node opAsgnK)
  | .defEndless => some ([.tok, .tok, .onode (ks [.Args]) true, .tok, .onode bodyK false], .node (ks [.Def]))
  | .defEndlessSingleton => some ([.tok, .node defineeK, .tok, .tok, .onode (ks [.Args]) true, .tok, .onode bodyK false], .node (ks [.Defs]))
  | .undefMethod => some ([.tok, .nodes symK true], .node (ks [.Undef]))
  | .kwoptarg => some ([.tok, .node valueK], .node (ks [.Kwoptarg]))
  | .lambda => some ([.tok, .args (ks [.Args]), .tok, .onode bodyK true, .tok], .node blocksK)
  | .attrAsgn => some ([.node receiverK, .tok, .tok], .node (ks [.Send0, .CSend0]))
  | .attrAsgnMasgn => some ([.node receiverK, .tok, .tok], .node (ks [.Send0]))
  | .index => some ([.node primaryK, .tok, .nodes callArgK false, .tok], .node (ks [.Index]))
  | .mlhsInner => some ([.tok, .node (ks [.Mlhs]), .tok], .node (ks [.Mlhs]))
  | .strings => some ([.nodes stringsK true], .node stringsK)
  | .string1 => some ([.tok, .nodes strPartK false, .tok], .node stringsK)
  | .xstring => some ([.tok, .nodes strPartK false, .tok], .node (ks [.Xstr, .XHeredoc]))
  | .regexp => some ([.tok, .nodes strPartK false, .tok], .node (ks [.Regexp]))
  | .word => some ([.nodes strPartK true], .node (ks [.Str, .Dstr]))
  | .symbolsCompose => some ([.tok, .nodes (ks [.Str, .Dstr, .Sym]) false, .tok], .node (ks [.Array]))
  | .symbolCompose => some ([.tok, .nodes strPartK false, .tok], .node symK)
  | .pairKeyword => some ([.tok, .node pairValueK], .node (ks [.Pair]))
  | .pairQuoted => some ([.tok, .nodes strPartK false, .tok, .node pairValueK], .node (ks [.Pair]))
  | .matchRest => some ([.tok, .otok true true], .node (ks [.MatchRest]))
  | .matchPair => some ([.label strPartK, .node pairValueK], .node (ks [.Pair]))
  | .matchLabel => some ([.label strPartK], .node (ks [.MatchVar]))
  | .constPatternEmpty => some ([.node (ks [.Const]), .tok, .tok], .node (ks [.ConstPattern]))
  | .callDotOpt => some ([.node receiverK, .tok, .tok, .parens callArgK], .node sendsK)
  | .keyword .Yield => some ([.tok, .nodes callArgK false], .node (ks [.Yield]))
  | .keyword .Super => some ([.tok, .nodes callArgK false], .node (ks [.Super]))
  | .keyword .Zsuper => some ([.tok, .nodes 0 false], .node (ks [.ZSuper]))
  | .keyword .Redo => some ([.tok, .nodes 0 false], .node (ks [.Redo]))
  | .keyword .Retry => some ([.tok, .nodes 0 false], .node (ks [.Retry]))
  | .keyword .Defined => some ([.tok, .nodes exprOrVoidK true], .node (ks [.Defined]))
  | .keywordParen .Yield => some ([.tok, .tok, .nodes callArgK false, .tok], .node (ks [.Yield]))
  | .keywordParen .Super => some ([.tok, .tok, .nodes callArgK false, .tok], .node (ks [.Super]))
  | .keywordParen .Zsuper => some ([.tok, .tok, .nodes 0 false, .tok], .node (ks [.ZSuper]))
  | .keywordParen .Redo => some ([.tok, .tok, .nodes 0 false, .tok], .node (ks [.Redo]))
  | .keywordParen .Retry => some ([.tok, .tok, .nodes 0 false, .tok], .node (ks [.Retry]))
  | .keywordParen .Defined => some ([.tok, .tok, .nodes exprOrVoidK true, .tok], .node (ks [.Defined]))
  | _ => none

/-- An element or an opening token. -/
def polyHeld (k : Kinds) (r : Kinds) : List Abs → Option Abs
  | [.otok no _, .nodes m ne, .otok _ _] => if (ne || !no) && sub m k then some (.node r) else none
  | _ => none
/-- `multi_lhs` -/
def polyMultiLhs : List Abs → Option Abs
  | [.otok _ _, .nodes m true, .otok _ _] =>
    if sub m destrK then some (.node (ks [.MlhsP])) else if sub m mlhsItemK then some (.node (ks [.Mlhs])) else none
  | _ => none
/-- `find_pattern` -/
def polyFind : List Abs → Option Abs
  | [.otok _ _, .nodes m true, .otok _ _] => if sub m patternItemK then some (.node (ks [.FindPattern])) else none
  | _ => none
/-- `args` -/
def polyArgs : List Abs → Option Abs
  | [.otok no _, .nodes m ne, .otok no' yes'] =>
    if sub m paramK && (ne || !no || !yes') then some (.onode (ks [.Args]) (no && !ne && no')) else none
  | _ => none
/-- `array_pattern` -/
def polyArrayPattern : List Abs → Option Abs
  | [.otok no _, .nodes m ne, .otok _ yes, .otok _ _] =>
    if (ne || !no) && sub m patternItemK then
      some (.node (if yes then ks [.ArrayPattern, .ArrayPatternWithTail] else ks [.ArrayPattern]))
    else none
  | _ => none
/-- `compstmt` -/
def polyCompstmt : List Abs → Option Abs
  | [.nodes m ne] => if sub m beginsK then some (.onode (m ||| ks [.Begin]) (!ne)) else none
  | _ => none
/-- `begin` -/
def polyBegin : List Abs → Option Abs
  | [.tok, .onode m opt, .tok] =>
    if !opt && sub m (ks [.Mlhs, .MlhsP]) then some (.node m)
    else if sub (without m (ks [.Mlhs, .MlhsP])) beginsK then some (.node ((m &&& ks [.Mlhs, .MlhsP]) ||| ks [.Begin])) else none
  | _ => none
/-- `assignable` -/
def polyAssignable : List Abs → Option Abs
  | [.node m] =>
    if sub m (ks [.MatchVar]) then some (.node (ks [.MatchVar]))
    else if sub m (ks [.Cvar, .Ivar, .Gvar, .Const, .Lvar, .BackRef, .NthRef] ||| keywordVarK) then
      some (.node (ks [.LvasgnT, .IvasgnT, .GvasgnT, .CvasgnT, .CasgnT]))
    else none
  | _ => none
/-- Parameters of a block -/
def polyProcargs : List Abs → Option Abs
  | [.nodes a x, .nodes b y] =>
    if y || a == 0 then some (.nodes (a ||| b) (x || y))
    else if sub a (ks [.Arg, .MlhsP]) then some (.nodes (a ||| b ||| ks [.Procarg0]) (x || y)) else none
  | _ => none
/-- The kinds of a call with arguments of the kinds `m`. -/
def sendK (m : Kinds) (dot : Bool) : Kinds :=
  if m == 0 then callK dot true else callK dot true ||| callK dot false
/-- The same for a call with a receiver. -/
def polySend (c m : Kinds) : Option Abs := if sub c receiverK && sub m callArgK then some (.node (sendK m true)) else none
/-- The same for a call without a receiver. -/
def polyCall (m : Kinds) : Option Abs := if sub m callArgK then some (.node (sendK m false)) else none
/-- `block` -/
def polyBlock : List Abs → Option Abs
  | [.node c, .tok, .args a, .onode b _, .tok] =>
    if sub a (ks [.Args]) && sub b bodyK then
      if sub c calleeK then some (.node blocksK)
      else if sub c (calleeK ||| ks [.Yield, .ReturnC, .BreakC, .NextC]) then some (.node (blocksK ||| ks [.Return, .Break, .Next]))
      else none
    else none
  | _ => none
/-- `return`, `break` and `next` -/
def polyJump (p : KeywordCmd) (m : Kinds) (ne : Bool) : Option Abs :=
  if (p == .Return || p == .Break || p == .Next) && sub m jumpArgK then
    some (.node (if ne && sub m jumpCalleeK then jumpCK p else jumpK p))
  else none

/-- Functions whose results depend on the kinds of their arguments. -/
def Grammar.BFn.poly (f : BFn) (as : List Abs) : Option Abs :=
  match f with
  | .someN => match as with
    | [.node m] => some (.onode m false)
    | _ => none
  | .single => match as with
    | [.node m] => some (.nodes m true)
    | _ => none
  | .append => match as with
    | [.nodes a x, .nodes b y] => some (.nodes (a ||| b) (x || y))
    | _ => none
  | .checked => match as with
    | [.node m] => some (.node (without m voidK))
    | _ => none
  | .array => polyHeld valueSplatK (ks [.Array]) as
  | .hashPattern => polyHeld (ks [.Pair, .MatchVar, .MatchRest, .MatchNilPattern]) (ks [.HashPattern]) as
  | .associate => polyHeld pairsK (ks [.Hash]) as
  | .multiLhs => polyMultiLhs as
  | .findPattern => polyFind as
  | .args => polyArgs as
  | .arrayPattern => polyArrayPattern as
  | .compstmt => polyCompstmt as
  | .begin => polyBegin as
  | .accessible => match as with
    | [.node m] => some (.node (accK m))
    | _ => none
  | .assignable => polyAssignable as
  | .procargs => polyProcargs as
  | .callDot => match as with
    | [.node c, .tok, .tok, .nodes m _] => polySend c m
    | _ => none
  | .callDotParen => match as with
    | [.node c, .tok, .tok, .tok, .nodes m _, .tok] => polySend c m
    | _ => none
  | .callParen => match as with
    | [.node c, .tok, .tok, .nodes m _, .tok] => polySend c m
    | _ => none
  | .callFn => match as with
    | [.tok, .nodes m _] => polyCall m
    | _ => none
  | .callFnParen => match as with
    | [.tok, .tok, .nodes m _, .tok] => polyCall m
    | _ => none
  | .block => polyBlock as
  | .keyword p => match as with
    | [.tok, .nodes m ne] => polyJump p m ne
    | _ => none
  | .keywordParen p => match as with
    | [.tok, .tok, .nodes m ne, .tok] => polyJump p m ne
    | _ => none
  | _ => none

/-- What a function gives for arguments of these descriptions, if it takes them. -/
def Grammar.BFn.gives (f : BFn) (as : List Abs) : Option Abs :=
  match f.mono with
  | some (ins, o) => if leL as ins then some o else none
  | none => f.poly as

theorem BldR.Safe.guard {α : Type} {m : BldR α} {g g' : Prop} {P : α → Prop} (h : BldR.Safe g m P) (hg : g' → g) : BldR.Safe g' m P := by
  intro s
  have := h s
  unfold Res.Safe at this ⊢
  split
  · rename_i e; rw [e] at this; exact this
  · rename_i e; rw [e] at this; exact fun k => this (hg k)

theorem mono_safe {ext : BldExt} {indent : Int} {f : BFn} {ins : List Abs} {o : Abs} {xs : List Atom} (h : f.mono = some (ins, o))
    (hx : HasL ins xs) : BldR.Safe (f.Dedents indent xs) (applyFn ext indent f xs) o.Has := by
  cases f with
  | someT => cases h; exact withT_safe hx fun x0 => outp_safe ((fun _ h => ⟨fun e => (by rw [e] at h; cases h), fun _ => rfl⟩ : ∀ r, (fun r : Option Token => r.isSome = true) r → Abs.Has (.otok false true) (.otok r)) _ sh_someT)
  | someN => cases h
  | noneT => cases h; exact withNone_safe hx (outp_safe ((fun _ h => ⟨fun _ => rfl, fun e => (by rw [h] at e; cases e)⟩ : ∀ r, (fun r : Option Token => r = none) r → Abs.Has (.otok true false) (.otok r)) _ sh_noneT))
  | noneN => cases h; exact withNone_safe hx (outp_safe ((fun _ h => ⟨h, nofun⟩ : ∀ r, (OkO 0) r → Abs.Has (.onode 0 true) (.onode r)) _ sh_noneN))
  | nilL => cases h; exact withNone_safe hx (outp_safe ((fun _ h => ⟨h, nofun⟩ : ∀ r, (OkL 0) r → Abs.Has (.nodes 0 false) (.nodes r)) _ sh_nilL))
  | single => cases h
  | append => cases h
  | checked => cases h
  | endlessName => cases h; exact withT_safe hx fun x0 => outB_safe (sh_endlessName) (fun _ _ => trivial)
  | kwargName => cases h; exact withT_safe hx fun x0 => outB_safe (sh_kwargName) (fun _ _ => trivial)
  | singletonExpr => cases h; exact withN_safe hx fun x0 h0 => outB_safe (sh_singletonExpr h0) (fun _ h => h)
  | argsType => cases h; exact withP_safe hx fun x0 h0 => outB_safe (sh_argsType h0.1) (fun _ h => h)
  | noParens => cases h; exact withNone_safe hx (outp_safe ((fun _ h => h : ∀ r, (fun r : Option Token × List Node × Option Token => OkL callArgK r.2.1) r → Abs.Has (.parens callArgK) (.parens r)) _ sh_noParens))
  | someParens => cases h; exact withTLT_safe hx fun x0 x1 x2 h1 => outp_safe ((fun _ h => h : ∀ r, (fun r : Option Token × List Node × Option Token => OkL callArgK r.2.1) r → Abs.Has (.parens callArgK) (.parens r)) _ (sh_someParens h1.1))
  | noExc => cases h; exact withNone_safe hx (outp_safe ((fun _ h => h : ∀ r, (fun r : Option Token × Option Node => OkO targetK r.2) r → Abs.Has (.exc targetK) (.exc r)) _ sh_noExc))
  | someExc => cases h; exact withTN_safe hx fun x0 x1 h1 => outp_safe ((fun _ h => h : ∀ r, (fun r : Option Token × Option Node => OkO targetK r.2) r → Abs.Has (.exc targetK) (.exc r)) _ (sh_someExc h1))
  | elseTail => cases h; exact withOP_safe hx fun x0 x1 h0 h1 => outp_safe ((fun _ h => h : ∀ r, (fun r : Option Token × Option Node => OkO stmtK r.2) r → Abs.Has (.tail stmtK) (.tail r)) _ (sh_elseTail h1.1))
  | elsifTail => cases h; exact withTNTPI_safe hx fun x0 x1 x2 x3 x4 h1 h3 h4 => outp_safe ((fun _ h => h : ∀ r, (fun r : Option Token × Option Node => OkO stmtK r.2) r → Abs.Has (.tail stmtK) (.tail r)) _ (sh_elsifTail h1 h3.1 h4))
  | plainLabel => cases h; exact withT_safe hx fun x0 => outp_safe trivial
  | quotedLabel => cases h; exact withTLT_safe hx fun x0 x1 x2 h1 => outp_safe h1.1
  | nil => cases h; exact withT_safe hx fun x0 => outp_safe ((fun _ h => h : ∀ r, (Ok (ks [.Nil])) r → Abs.Has (.node (ks [.Nil])) (.node r)) _ sh_nil)
  | true_ => cases h; exact withT_safe hx fun x0 => outp_safe ((fun _ h => h : ∀ r, (Ok (ks [.True])) r → Abs.Has (.node (ks [.True])) (.node r)) _ sh_true_)
  | false_ => cases h; exact withT_safe hx fun x0 => outp_safe ((fun _ h => h : ∀ r, (Ok (ks [.False])) r → Abs.Has (.node (ks [.False])) (.node r)) _ sh_false_)
  | line => cases h; exact withT_safe hx fun x0 => outp_safe ((fun _ h => h : ∀ r, (Ok (ks [.Line])) r → Abs.Has (.node (ks [.Line])) (.node r)) _ sh_line)
  | file => cases h; exact withT_safe hx fun x0 => outp_safe ((fun _ h => h : ∀ r, (Ok (ks [.File])) r → Abs.Has (.node (ks [.File])) (.node r)) _ sh_file)
  | self_ => cases h; exact withT_safe hx fun x0 => outp_safe ((fun _ h => h : ∀ r, (Ok (ks [.Self_])) r → Abs.Has (.node (ks [.Self_])) (.node r)) _ sh_self_)
  | encoding => cases h; exact withT_safe hx fun x0 => outp_safe ((fun _ h => h : ∀ r, (Ok (ks [.Encoding])) r → Abs.Has (.node (ks [.Encoding])) (.node r)) _ sh_encoding)
  | forwardArg => cases h; exact withT_safe hx fun x0 => outp_safe ((fun _ h => h : ∀ r, (Ok (ks [.ForwardArg])) r → Abs.Has (.node (ks [.ForwardArg])) (.node r)) _ sh_forwardArg)
  | forwardedArgs => cases h; exact withT_safe hx fun x0 => outp_safe ((fun _ h => h : ∀ r, (Ok (ks [.ForwardedArgs])) r → Abs.Has (.node (ks [.ForwardedArgs])) (.node r)) _ sh_forwardedArgs)
  | stringInternal => cases h; exact withT_safe hx fun x0 => outp_safe ((fun _ h => h : ∀ r, (Ok (ks [.Str])) r → Abs.Has (.node (ks [.Str])) (.node r)) _ sh_stringInternal)
  | integer => cases h; exact withT_safe hx fun x0 => outR_safe (sh_integer) (fun _ h => h)
  | float => cases h; exact withT_safe hx fun x0 => outR_safe (sh_float) (fun _ h => h)
  | rational => cases h; exact withT_safe hx fun x0 => outR_safe (sh_rational) (fun _ h => h)
  | complex => cases h; exact withT_safe hx fun x0 => outR_safe (sh_complex) (fun _ h => h)
  | lvar => cases h; exact withT_safe hx fun x0 => outR_safe (sh_lvar) (fun _ h => h)
  | ivar => cases h; exact withT_safe hx fun x0 => outR_safe (sh_ivar) (fun _ h => h)
  | gvar => cases h; exact withT_safe hx fun x0 => outR_safe (sh_gvar) (fun _ h => h)
  | cvar => cases h; exact withT_safe hx fun x0 => outR_safe (sh_cvar) (fun _ h => h)
  | backRef => cases h; exact withT_safe hx fun x0 => outR_safe (sh_backRef) (fun _ h => h)
  | const_ => cases h; exact withT_safe hx fun x0 => outR_safe (sh_const_) (fun _ h => h)
  | constFetch => cases h; exact withNTT_safe hx fun x0 x1 x2 h0 => outR_safe (sh_constFetch h0) (fun _ h => h)
  | constGlobal => cases h; exact withTT_safe hx fun x0 x1 => outR_safe (sh_constGlobal) (fun _ h => h)
  | arg => cases h; exact withT_safe hx fun x0 => outB_safe (sh_arg) (fun _ h => h)
  | shadowarg => cases h; exact withT_safe hx fun x0 => outB_safe (sh_shadowarg) (fun _ h => h)
  | optarg => cases h; exact withTTN_safe hx fun x0 x1 x2 h2 => outB_safe (sh_optarg h2) (fun _ h => h)
  | kwnilarg => cases h; exact withTT_safe hx fun x0 x1 => outp_safe ((fun _ h => h : ∀ r, (Ok (ks [.Kwnilarg])) r → Abs.Has (.node (ks [.Kwnilarg])) (.node r)) _ sh_kwnilarg)
  | «alias» => cases h; exact withTNN_safe hx fun x0 x1 x2 h1 h2 => outp_safe ((fun _ h => h : ∀ r, (Ok (ks [.Alias])) r → Abs.Has (.node (ks [.Alias])) (.node r)) _ (sh_alias h1 h2))
  | pair => cases h; exact withNTN_safe hx fun x0 x1 x2 h0 h2 => outp_safe ((fun _ h => h : ∀ r, (Ok (ks [.Pair])) r → Abs.Has (.node (ks [.Pair])) (.node r)) _ (sh_pair h0 h2))
  | kwsplat => cases h; exact withTN_safe hx fun x0 x1 h1 => outp_safe ((fun _ h => h : ∀ r, (Ok (ks [.Kwsplat])) r → Abs.Has (.node (ks [.Kwsplat])) (.node r)) _ (sh_kwsplat h1))
  | multiAssign => cases h; exact withNTN_safe hx fun x0 x1 x2 h0 h2 => outp_safe ((fun _ h => h : ∀ r, (Ok (ks [.Masgn])) r → Abs.Has (.node (ks [.Masgn])) (.node r)) _ (sh_multiAssign h0 h2))
  | defClass => cases h; exact withTNOPPT_safe hx fun x0 x1 x2 x3 x4 x5 h1 h2 h3 h4 => outp_safe ((fun _ h => h : ∀ r, (Ok (ks [.Class])) r → Abs.Has (.node (ks [.Class])) (.node r)) _ (sh_defClass h1 h3.1 h4.1))
  | defSclass => cases h; exact withTTNPT_safe hx fun x0 x1 x2 x3 x4 h2 h3 => outp_safe ((fun _ h => h : ∀ r, (Ok (ks [.SClass])) r → Abs.Has (.node (ks [.SClass])) (.node r)) _ (sh_defSclass h2 h3.1))
  | defModule => cases h; exact withTNPT_safe hx fun x0 x1 x2 x3 h1 h2 => outp_safe ((fun _ h => h : ∀ r, (Ok (ks [.Module])) r → Abs.Has (.node (ks [.Module])) (.node r)) _ (sh_defModule h1 h2.1))
  | defMethod => cases h; exact withTTPPT_safe hx fun x0 x1 x2 x3 x4 h2 h3 => outB_safe (sh_defMethod h2.1 h3.1) (fun _ h => h)
  | defSingleton => cases h; exact withTNTTPPT_safe hx fun x0 x1 x2 x3 x4 x5 x6 h1 h4 h5 => outB_safe (sh_defSingleton h1 h4.1 h5.1) (fun _ h => h)
  | indexAsgn => cases h; exact withNTLT_safe hx fun x0 x1 x2 x3 h0 h2 => outp_safe ((fun _ h => h : ∀ r, (Ok (ks [.IndexAsgnT])) r → Abs.Has (.node (ks [.IndexAsgnT])) (.node r)) _ (sh_indexAsgn h0 h2.1))
  | ternary => cases h; exact withNTNTN_safe hx fun x0 x1 x2 x3 x4 h0 h2 h4 => outp_safe ((fun _ h => h : ∀ r, (Ok (ks [.IfTernary])) r → Abs.Has (.node (ks [.IfTernary])) (.node r)) _ (sh_ternary h0 h2 h4))
  | «case» => cases h; exact withTPLOPT_safe hx fun x0 x1 x2 x3 x4 x5 h1 h2 h3 h4 => outp_safe ((fun _ h => h : ∀ r, (Ok (ks [.Case])) r → Abs.Has (.node (ks [.Case])) (.node r)) _ (sh_case h1.1 h2.1 (h2.2 rfl) h4.1))
  | for_ => cases h; exact withTNTNTPT_safe hx fun x0 x1 x2 x3 x4 x5 x6 h1 h3 h5 => outp_safe ((fun _ h => h : ∀ r, (Ok (ks [.For])) r → Abs.Has (.node (ks [.For])) (.node r)) _ (sh_for_ h1 h3 h5.1))
  | preexe => cases h; exact withTTPT_safe hx fun x0 x1 x2 x3 h2 => outp_safe ((fun _ h => h : ∀ r, (Ok (ks [.Preexe])) r → Abs.Has (.node (ks [.Preexe])) (.node r)) _ (sh_preexe h2.1))
  | postexe => cases h; exact withTTPT_safe hx fun x0 x1 x2 x3 h2 => outp_safe ((fun _ h => h : ∀ r, (Ok (ks [.Postexe])) r → Abs.Has (.node (ks [.Postexe])) (.node r)) _ (sh_postexe h2.1))
  | matchPattern => cases h; exact withNTN_safe hx fun x0 x1 x2 h0 h2 => outp_safe ((fun _ h => h : ∀ r, (Ok (ks [.MatchPattern])) r → Abs.Has (.node (ks [.MatchPattern])) (.node r)) _ (sh_matchPattern h0 h2))
  | matchPatternP => cases h; exact withNTN_safe hx fun x0 x1 x2 h0 h2 => outp_safe ((fun _ h => h : ∀ r, (Ok (ks [.MatchPatternP])) r → Abs.Has (.node (ks [.MatchPatternP])) (.node r)) _ (sh_matchPatternP h0 h2))
  | ifGuard => cases h; exact withTN_safe hx fun x0 x1 h1 => outp_safe ((fun _ h => h : ∀ r, (Ok (ks [.IfGuard])) r → Abs.Has (.node (ks [.IfGuard])) (.node r)) _ (sh_ifGuard h1))
  | unlessGuard => cases h; exact withTN_safe hx fun x0 x1 h1 => outp_safe ((fun _ h => h : ∀ r, (Ok (ks [.UnlessGuard])) r → Abs.Has (.node (ks [.UnlessGuard])) (.node r)) _ (sh_unlessGuard h1))
  | constPattern => cases h; exact withNTNT_safe hx fun x0 x1 x2 x3 h0 h2 => outp_safe ((fun _ h => h : ∀ r, (Ok (ks [.ConstPattern])) r → Abs.Has (.node (ks [.ConstPattern])) (.node r)) _ (sh_constPattern h0 h2))
  | pin => cases h; exact withTN_safe hx fun x0 x1 h1 => outp_safe ((fun _ h => h : ∀ r, (Ok (ks [.Pin])) r → Abs.Has (.node (ks [.Pin])) (.node r)) _ (sh_pin h1))
  | matchAlt => cases h; exact withNTN_safe hx fun x0 x1 x2 h0 h2 => outp_safe ((fun _ h => h : ∀ r, (Ok (ks [.MatchAlt])) r → Abs.Has (.node (ks [.MatchAlt])) (.node r)) _ (sh_matchAlt h0 h2))
  | matchAs => cases h; exact withNTN_safe hx fun x0 x1 x2 h0 h2 => outp_safe ((fun _ h => h : ∀ r, (Ok (ks [.MatchAs])) r → Abs.Has (.node (ks [.MatchAs])) (.node r)) _ (sh_matchAs h0 h2))
  | matchNilPattern => cases h; exact withTT_safe hx fun x0 x1 => outp_safe ((fun _ h => h : ∀ r, (Ok (ks [.MatchNilPattern])) r → Abs.Has (.node (ks [.MatchNilPattern])) (.node r)) _ sh_matchNilPattern)
  | wordsCompose => cases h; exact withTLT_safe hx fun x0 x1 x2 h1 => outp_safe ((fun _ h => h : ∀ r, (Ok (ks [.Array])) r → Abs.Has (.node (ks [.Array])) (.node r)) _ (sh_wordsCompose h1.1))
  | character => cases h; exact withT_safe hx fun x0 => outp_safe ((fun _ h => h : ∀ r, (Ok (ks [.Str])) r → Abs.Has (.node (ks [.Str])) (.node r)) _ sh_character)
  | splat => cases h; exact withTP_safe hx fun x0 x1 h1 => outp_safe ((fun _ h => h : ∀ r, (Ok (ks [.Splat])) r → Abs.Has (.node (ks [.Splat])) (.node r)) _ (sh_splat h1.1))
  | blockPass => cases h; exact withTP_safe hx fun x0 x1 h1 => outp_safe ((fun _ h => h : ∀ r, (Ok (ks [.BlockPass])) r → Abs.Has (.node (ks [.BlockPass])) (.node r)) _ (sh_blockPass h1.1))
  | rangeInclusive => cases h; exact withPTP_safe hx fun x0 x1 x2 h0 h2 => outp_safe ((fun _ h => h : ∀ r, (Ok (ks [.Irange])) r → Abs.Has (.node (ks [.Irange])) (.node r)) _ (sh_rangeInclusive h0.1 h2.1))
  | rangeExclusive => cases h; exact withPTP_safe hx fun x0 x1 x2 h0 h2 => outp_safe ((fun _ h => h : ∀ r, (Ok (ks [.Erange])) r → Abs.Has (.node (ks [.Erange])) (.node r)) _ (sh_rangeExclusive h0.1 h2.1))
  | restarg => cases h; exact withTO_safe hx fun x0 x1 h1 => outB_safe (sh_restarg) (fun _ h => h)
  | kwrestarg => cases h; exact withTO_safe hx fun x0 x1 h1 => outB_safe (sh_kwrestarg) (fun _ h => h)
  | blockarg => cases h; exact withTO_safe hx fun x0 x1 h1 => outB_safe (sh_blockarg) (fun _ h => h)
  | unaryNum => cases h; exact withTN_safe hx fun x0 x1 h1 => outR_safe (sh_unaryNum h1) (fun _ h => h)
  | symbol => cases h; exact withTT_safe hx fun x0 x1 => outM_safe (sh_symbol) (fun _ h => h)
  | symbolInternal => cases h; exact withT_safe hx fun x0 => outM_safe (sh_symbolInternal) (fun _ h => h)
  | nthRef => cases h; exact withT_safe hx fun x0 => outM_safe (sh_nthRef) (fun _ h => h)
  | matchVar => cases h; exact withT_safe hx fun x0 => outB_safe (sh_matchVar) (fun _ h => h)
  | array => cases h
  | multiLhs => cases h
  | hashPattern => cases h
  | findPattern => cases h
  | associate => cases h
  | args => cases h
  | arrayPattern => cases h
  | logical p =>
    cases p with
    | And => cases h; exact withNTN_safe hx fun x0 x1 x2 h0 h2 => outB_safe (sh_logical_And h0 h2) (fun _ h => h)
    | Or => cases h; exact withNTN_safe hx fun x0 x1 x2 h0 h2 => outB_safe (sh_logical_Or h0 h2) (fun _ h => h)
  | binaryOp => cases h; exact withNTN_safe hx fun x0 x1 x2 h0 h2 => outB_safe (sh_binaryOp h0 h2) (fun _ h => h)
  | unaryOp => cases h; exact withTN_safe hx fun x0 x1 h1 => outB_safe (sh_unaryOp h1) (fun _ h => h)
  | matchOp => cases h; exact withNTN_safe hx fun x0 x1 x2 h0 h2 => outB_safe (sh_matchOp h0 h2) (fun _ h => h)
  | notOp => cases h; exact withTN_safe hx fun x0 x1 h1 => outB_safe (sh_notOp h1) (fun _ h => h)
  | notParen => cases h; exact withTTNT_safe hx fun x0 x1 x2 x3 h2 => outB_safe (sh_notParen h2) (fun _ h => h)
  | notEmpty => cases h; exact withTTT_safe hx fun x0 x1 x2 => outB_safe (sh_notEmpty) (fun _ h => h)
  | ifMod => cases h; exact withNTN_safe hx fun x0 x1 x2 h0 h2 => outR_safe (sh_ifMod h0 h2) (fun _ h => h)
  | unlessMod => cases h; exact withNTN_safe hx fun x0 x1 x2 h0 h2 => outR_safe (sh_unlessMod h0 h2) (fun _ h => h)
  | loopMod p =>
    cases p with
    | While => cases h; exact withNTN_safe hx fun x0 x1 x2 h0 h2 => outp_safe ((fun _ h => h : ∀ r, (Ok (ks [.While, .WhilePost])) r → Abs.Has (.node (ks [.While, .WhilePost])) (.node r)) _ (sh_loopMod_While h0 h2))
    | Until => cases h; exact withNTN_safe hx fun x0 x1 x2 h0 h2 => outp_safe ((fun _ h => h : ∀ r, (Ok (ks [.Until, .UntilPost])) r → Abs.Has (.node (ks [.Until, .UntilPost])) (.node r)) _ (sh_loopMod_Until h0 h2))
  | loop_ p =>
    cases p with
    | While => cases h; exact withTNTPT_safe hx fun x0 x1 x2 x3 x4 h1 h3 => outp_safe ((fun _ h => h : ∀ r, (Ok (ks [.While])) r → Abs.Has (.node (ks [.While])) (.node r)) _ (sh_loop__While h1 h3.1))
    | Until => cases h; exact withTNTPT_safe hx fun x0 x1 x2 x3 x4 h1 h3 => outp_safe ((fun _ h => h : ∀ r, (Ok (ks [.Until])) r → Abs.Has (.node (ks [.Until])) (.node r)) _ (sh_loop__Until h1 h3.1))
  | condition => cases h; exact withTNTPIT_safe hx fun x0 x1 x2 x3 x4 x5 h1 h3 h4 => outp_safe ((fun _ h => h : ∀ r, (Ok (ks [.If])) r → Abs.Has (.node (ks [.If])) (.node r)) _ (sh_condition h1 h3.1 h4))
  | unless_ => cases h; exact withTNTPOPT_safe hx fun x0 x1 x2 x3 x4 x5 x6 h1 h3 h4 h5 => outp_safe ((fun _ h => h : ∀ r, (Ok (ks [.If])) r → Abs.Has (.node (ks [.If])) (.node r)) _ (sh_unless_ h1 h3.1 h5.1))
  | «when» => cases h; exact withTLTP_safe hx fun x0 x1 x2 x3 h1 h3 => outp_safe ((fun _ h => h : ∀ r, (Ok (ks [.When])) r → Abs.Has (.node (ks [.When])) (.node r)) _ (sh_when h1.1 (h1.2 rfl) h3.1))
  | inPattern => cases h; exact withTNPTP_safe hx fun x0 x1 x2 x3 x4 h1 h2 h4 => outp_safe ((fun _ h => h : ∀ r, (Ok (ks [.InPattern])) r → Abs.Has (.node (ks [.InPattern])) (.node r)) _ (sh_inPattern h1 h2.1 h4.1))
  | caseMatch => cases h; exact withTNLOPT_safe hx fun x0 x1 x2 x3 x4 x5 h1 h2 h3 h4 => outp_safe ((fun _ h => h : ∀ r, (Ok (ks [.CaseMatch])) r → Abs.Has (.node (ks [.CaseMatch])) (.node r)) _ (sh_caseMatch h1 h2.1 (h2.2 rfl) h4.1))
  | rescueClause => cases h; exact withTLETP_safe hx fun x0 x1 x2 x3 x4 h1 h2 h4 => outR_safe (sh_rescueClause h1.1 h2 h4.1) (fun _ h => h)
  | rescueModOpt => cases h; exact withNTN_safe hx fun x0 x1 x2 h0 h2 => outR_safe (sh_rescueModOpt h0 h2) (fun _ h => ⟨h.1, fun _ => h.2⟩)
  | rescueMod => cases h; exact withNTN_safe hx fun x0 x1 x2 h0 h2 => outR_safe (sh_rescueMod h0 h2) (fun _ h => h)
  | compstmt => cases h
  | «begin» => cases h
  | beginKeyword => cases h; exact withTPT_safe hx fun x0 x1 x2 h1 => outp_safe ((fun _ h => h : ∀ r, (Ok (ks [.KwBegin])) r → Abs.Has (.node (ks [.KwBegin])) (.node r)) _ (sh_beginKeyword h1.1))
  | bodystmtElse => cases h; exact withPLTPOP_safe hx fun x0 x1 x2 x3 x4 x5 h0 h1 h3 h4 h5 => outB_safe (sh_bodystmtElse h0.1 h1.1 h3.1 h5.1) (fun _ h => ⟨h, nofun⟩)
  | bodystmt => cases h; exact withPLOP_safe hx fun x0 x1 x2 x3 h0 h1 h2 h3 => outR_safe (sh_bodystmt h0.1 h1.1 h3.1) (fun _ h => ⟨h, nofun⟩)
  | accessible => cases h
  | assignable => cases h
  | constOpAssignable => cases h; exact withN_safe hx fun x0 h0 => outR_safe (sh_constOpAssignable h0) (fun _ h => h)
  | assign => cases h; exact withNTN_safe hx fun x0 x1 x2 h0 h2 => outR_safe (sh_assign h0 h2) (fun _ h => h)
  | opAssign => cases h; exact withNTN_safe hx fun x0 x1 x2 h0 h2 => outB_safe (sh_opAssign h0 h2) (fun _ h => h)
  | defEndless => cases h; exact withTTPTP_safe hx fun x0 x1 x2 x3 x4 h2 h4 => outB_safe (sh_defEndless h2.1 h4.1 (h4.2 rfl)) (fun _ h => h)
  | defEndlessSingleton => cases h; exact withTNTTPTP_safe hx fun x0 x1 x2 x3 x4 x5 x6 h1 h4 h6 => outB_safe (sh_defEndlessSingleton h1 h4.1 h6.1 (h6.2 rfl)) (fun _ h => h)
  | undefMethod => cases h; exact withTL_safe hx fun x0 x1 h1 => outp_safe ((fun _ h => h : ∀ r, (Ok (ks [.Undef])) r → Abs.Has (.node (ks [.Undef])) (.node r)) _ (sh_undefMethod h1.1 (h1.2 rfl)))
  | kwarg => cases h; exact withT_safe hx fun x0 => outB_safe (sh_kwarg) (fun _ h => h)
  | kwoptarg => cases h; exact withTN_safe hx fun x0 x1 h1 => outB_safe (sh_kwoptarg h1) (fun _ h => h)
  | procargs => cases h
  | callDot => cases h
  | callFn => cases h
  | callFnParen => cases h
  | callDotParen => cases h
  | callDotOpt => cases h; exact withNTTG_safe hx fun x0 x1 x2 x3 h0 h3 => outR_safe (sh_callDotOpt h0 h3) (fun _ h => h)
  | callParen => cases h
  | block => cases h
  | lambda => cases h; exact withTATPT_safe hx fun x0 x1 x2 x3 x4 h1 h3 => outB_safe (sh_lambda h1 h3.1) (fun _ h => h)
  | attrAsgn => cases h; exact withNTT_safe hx fun x0 x1 x2 h0 => outR_safe (sh_attrAsgn h0) (fun _ h => h)
  | attrAsgnMasgn => cases h; exact withNTT_safe hx fun x0 x1 x2 h0 => outB_safe (sh_attrAsgnMasgn h0) (fun _ h => h)
  | index => cases h; exact withNTLT_safe hx fun x0 x1 x2 x3 h0 h2 => outR_safe (sh_index h0 h2.1) (fun _ h => h)
  | keyword p =>
    cases p with
    | Break => cases h
    | Defined => cases h; exact withTL_safe hx fun x0 x1 h1 => outB_safe (sh_keyword_Defined h1.1 (h1.2 rfl)) (fun _ h => h)
    | Next => cases h
    | Redo => cases h; exact withTL_safe hx fun x0 x1 h1 => outB_safe (sh_keyword_Redo h1.1) (fun _ h => h)
    | Retry => cases h; exact withTL_safe hx fun x0 x1 h1 => outB_safe (sh_keyword_Retry h1.1) (fun _ h => h)
    | Return => cases h
    | Super => cases h; exact withTL_safe hx fun x0 x1 h1 => outB_safe (sh_keyword_Super h1.1) (fun _ h => h)
    | Yield => cases h; exact withTL_safe hx fun x0 x1 h1 => outB_safe (sh_keyword_Yield h1.1) (fun _ h => h)
    | Zsuper => cases h; exact withTL_safe hx fun x0 x1 h1 => outB_safe (sh_keyword_Zsuper h1.1) (fun _ h => h)
  | keywordParen p =>
    cases p with
    | Break => cases h
    | Defined => cases h; exact withTTLT_safe hx fun x0 x1 x2 x3 h2 => outB_safe (sh_keywordParen_Defined h2.1 (h2.2 rfl)) (fun _ h => h)
    | Next => cases h
    | Redo => cases h; exact withTTLT_safe hx fun x0 x1 x2 x3 h2 => outB_safe (sh_keywordParen_Redo h2.1) (fun _ h => h)
    | Retry => cases h; exact withTTLT_safe hx fun x0 x1 x2 x3 h2 => outB_safe (sh_keywordParen_Retry h2.1) (fun _ h => h)
    | Return => cases h
    | Super => cases h; exact withTTLT_safe hx fun x0 x1 x2 x3 h2 => outB_safe (sh_keywordParen_Super h2.1) (fun _ h => h)
    | Yield => cases h; exact withTTLT_safe hx fun x0 x1 x2 x3 h2 => outB_safe (sh_keywordParen_Yield h2.1) (fun _ h => h)
    | Zsuper => cases h; exact withTTLT_safe hx fun x0 x1 x2 x3 h2 => outB_safe (sh_keywordParen_Zsuper h2.1) (fun _ h => h)
  | mlhsInner => cases h; exact withTNT_safe hx fun x0 x1 x2 h1 => outR_safe (sh_mlhsInner h1) (fun _ h => h)
  | strings => cases h; exact withL_safe hx fun x0 h0 => outR_safe (sh_strings h0.1 (h0.2 rfl)) (fun _ h => h)
  | string1 =>
    cases h
    obtain ⟨_, _, rfl, h0, r0⟩ := hasL_cons hx
    obtain ⟨x0, rfl, h0⟩ := has_tok h0
    obtain ⟨_, _, rfl, h1, r1⟩ := hasL_cons r0
    obtain ⟨x1, rfl, h1⟩ := has_nodes h1
    obtain ⟨_, _, rfl, h2, r2⟩ := hasL_cons r1
    obtain ⟨x2, rfl, h2⟩ := has_tok h2
    cases hasL_nil r2
    exact outR_safe (sh_string1 h1.1) (fun _ h => h)
  | xstring =>
    cases h
    obtain ⟨_, _, rfl, h0, r0⟩ := hasL_cons hx
    obtain ⟨x0, rfl, h0⟩ := has_tok h0
    obtain ⟨_, _, rfl, h1, r1⟩ := hasL_cons r0
    obtain ⟨x1, rfl, h1⟩ := has_nodes h1
    obtain ⟨_, _, rfl, h2, r2⟩ := hasL_cons r1
    obtain ⟨x2, rfl, h2⟩ := has_tok h2
    cases hasL_nil r2
    exact outR_safe (sh_xstring h1.1) (fun _ h => h)
  | regexp => cases h; exact withTLT_safe hx fun x0 x1 x2 h1 => outM_safe (sh_regexp h1.1) (fun _ h => h)
  | word => cases h; exact withL_safe hx fun x0 h0 => outR_safe (sh_word h0.1 (h0.2 rfl)) (fun _ h => h)
  | symbolsCompose => cases h; exact withTLT_safe hx fun x0 x1 x2 h1 => outM_safe (sh_symbolsCompose h1.1) (fun _ h => h)
  | symbolCompose => cases h; exact withTLT_safe hx fun x0 x1 x2 h1 => outM_safe (sh_symbolCompose h1.1) (fun _ h => h)
  | pairKeyword => cases h; exact withTN_safe hx fun x0 x1 h1 => outM_safe (sh_pairKeyword h1) (fun _ h => h)
  | pairLabel => cases h; exact withT_safe hx fun x0 => outM_safe (sh_pairLabel) (fun _ h => h)
  | pairQuoted => cases h; exact withTLTN_safe hx fun x0 x1 x2 x3 h1 h3 => outM_safe (sh_pairQuoted h1.1 h3) (fun _ h => h)
  | matchRest => cases h; exact withTO_safe hx fun x0 x1 h1 => outB_safe (sh_matchRest) (fun _ h => h)
  | matchPair => cases h; exact withKN_safe hx fun x0 x1 h0 h1 => outB_safe (sh_matchPair h0 h1) (fun _ h => h)
  | matchLabel => cases h; exact withK_safe hx fun x0 h0 => outB_safe (sh_matchLabel h0) (fun _ h => h)
  | constPatternEmpty => cases h; exact withNTT_safe hx fun x0 x1 x2 h0 => outR_safe (sh_constPatternEmpty h0) (fun _ h => h)

theorem held_cond {x0 : Option Token} {x1 : List Node} {no yes ne : Bool} {m : Kinds} (h0 : (Abs.otok no yes).Has (.otok x0))
    (h1 : (Abs.nodes m ne).Has (.nodes x1)) (h : (ne || !no) = true) : x0.isSome = true ∨ x1 ≠ [] := by
  cases ne with
  | true => exact .inr (h1.2 rfl)
  | false =>
    cases x0 with
    | none => rw [h0.1 rfl] at h; cases h
    | some => exact .inl rfl
theorem sendK_has {n : Node} {m : Kinds} {l : List Node} {dot : Bool} (hl : OkL m l) (h : Ok (callK dot l.isEmpty) n) :
    Ok (sendK m dot) n := by
  unfold sendK
  split
  · next h0 =>
    rw [beq_iff_eq] at h0
    subst h0
    rw [okl_zero hl] at h
    exact h
  · refine ⟨has_or.2 ?_, h.2⟩
    have := h.1
    revert this
    cases l.isEmpty
    · exact .inr
    · exact .inl

theorem polyHeld_some {k r : Kinds} {as : List Abs} {o : Abs} {xs : List Atom} (h : polyHeld k r as = some o) (hx : HasL as xs) :
    ∃ x0 x1 x2, xs = [.otok x0, .nodes x1, .otok x2] ∧ (x0.isSome = true ∨ x1 ≠ []) ∧ OkL k x1 ∧ o = .node r := by
  unfold polyHeld at h
  split at h
  · split at h
    · next hc =>
      rw [Bool.and_eq_true] at hc
      cases h
      obtain ⟨_, _, rfl, h0, r0⟩ := hasL_cons hx
      obtain ⟨x0, rfl, h0⟩ := has_otok h0
      obtain ⟨_, _, rfl, h1, r1⟩ := hasL_cons r0
      obtain ⟨x1, rfl, h1⟩ := has_nodes h1
      obtain ⟨_, _, rfl, h2, r2⟩ := hasL_cons r1
      obtain ⟨x2, rfl, h2⟩ := has_otok h2
      cases hasL_nil r2
      exact ⟨x0, x1, x2, rfl, held_cond h0 h1 hc.1, h1.1.mono hc.2, rfl⟩
    · cases h
  · cases h

theorem polySend_some {c m : Kinds} {o : Abs} (h : polySend c m = some o) :
    sub c receiverK = true ∧ sub m callArgK = true ∧ o = .node (sendK m true) := by
  unfold polySend at h
  split at h
  · next hc => rw [Bool.and_eq_true] at hc; cases h; exact ⟨hc.1, hc.2, rfl⟩
  · cases h
theorem polyCall_some {m : Kinds} {o : Abs} (h : polyCall m = some o) : sub m callArgK = true ∧ o = .node (sendK m false) := by
  unfold polyCall at h
  split at h
  · next hc => cases h; exact ⟨hc, rfl⟩
  · cases h
theorem polyJump_safe {g : Prop} {p : KeywordCmd} {m : Kinds} {ne : Bool} {o : Abs} {t : Token} {l r : Option Token} {x : List Node}
    (h : polyJump p m ne = some o) (hx : (Abs.nodes m ne).Has (.nodes x)) :
    BldR.Safe g (outB .node (keywordCmd p t l x r)) o.Has := by
  unfold polyJump at h
  split at h
  · next hc =>
    rw [Bool.and_eq_true, Bool.or_eq_true, Bool.or_eq_true, beq_iff_eq, beq_iff_eq, beq_iff_eq, or_assoc] at hc
    cases h
    refine outB_safe (jump_safe hc.1 (hx.1.mono hc.2)) fun n hn => ?_
    show Ok _ n
    split
    · next hk =>
      rw [Bool.and_eq_true] at hk
      exact hn.2 (hx.1.mono hk.2) (hx.2 hk.1)
    · exact hn.1
  · cases h

theorem poly_safe {g : Prop} {ext : BldExt} {indent : Int} {f : BFn} {as : List Abs} {o : Abs} {xs : List Atom} (h : f.poly as = some o)
    (hx : HasL as xs) : BldR.Safe g (applyFn ext indent f xs) o.Has := by
  unfold BFn.poly at h
  split at h
  · split at h
    · cases h; exact withN_safe hx fun x0 h0 => outp_safe ⟨oko_some.2 h0, fun _ => rfl⟩
    · cases h
  · split at h
    · cases h; exact withN_safe hx fun x0 h0 => outp_safe ⟨okl_one h0, fun _ => nofun⟩
    · cases h
  · split at h
    · next a x b y =>
      cases h
      refine withLL_safe hx fun x0 x1 h0 h1 => outp_safe ⟨okl_append.2 ⟨fun n hn => ?_, fun n hn => ?_⟩, fun hc => ?_⟩
      · exact ⟨has_or.2 (.inl (h0.1 n hn).1), (h0.1 n hn).2⟩
      · exact ⟨has_or.2 (.inr (h1.1 n hn).1), (h1.1 n hn).2⟩
      · rw [Bool.or_eq_true] at hc
        rcases hc with hc | hc
        · have := h0.2 hc; simp [this]
        · have := h1.2 hc; simp [this]
    · cases h
  · split at h
    · next m =>
      cases h
      refine withN_safe hx fun x0 h0 => outB_safe (P := Ok (without m voidK)) ?_ fun _ h => h
      exact BldR.safe_bind valueExpr_safe fun _ hv => BldR.safe_pure ⟨has_without.2 ⟨h0.1, hv⟩, h0.2⟩
    · cases h
  · obtain ⟨x0, x1, x2, rfl, hc, h1, rfl⟩ := polyHeld_some h hx
    exact outR_safe (sh_array hc h1) fun _ h => h
  · obtain ⟨x0, x1, x2, rfl, hc, h1, rfl⟩ := polyHeld_some h hx
    exact outR_safe (sh_hashPattern hc h1) fun _ h => h
  · obtain ⟨x0, x1, x2, rfl, hc, h1, rfl⟩ := polyHeld_some h hx
    exact outM_safe (sh_associate hc h1) fun _ h => h
  · unfold polyMultiLhs at h
    split at h
    · split at h
      · next hs =>
        cases h
        exact withOLO_safe hx fun x0 x1 x2 h0 h1 h2 => outR_safe (sh_multiLhs_destr (h1.2 rfl) (h1.1.mono hs)) fun _ h => h
      · split at h
        · next hs =>
          cases h
          exact withOLO_safe hx fun x0 x1 x2 h0 h1 h2 => outR_safe (sh_multiLhs_items (h1.2 rfl) (h1.1.mono hs)) fun _ h => h
        · cases h
    · cases h
  · unfold polyFind at h
    split at h
    · split at h
      · next hs =>
        cases h
        exact withOLO_safe hx fun x0 x1 x2 h0 h1 h2 => outR_safe (sh_findPattern (h1.2 rfl) (h1.1.mono hs)) fun _ h => h
      · cases h
    · cases h
  · unfold polyArgs at h
    split at h
    · next no yes m ne no' yes' =>
      split at h
      · next hs =>
        cases h
        rw [Bool.and_eq_true] at hs
        refine withOLO_safe hx fun x0 x1 x2 h0 h1 h2 => outM_safe (sh_args ?_ (h1.1.mono hs.1)) fun r h => ⟨h.1, fun ho => h.2 ?_⟩
        · cases ne with
          | true => exact .inr (.inl (h1.2 rfl))
          | false =>
            cases x0 with
            | some => exact .inl rfl
            | none =>
              cases x2 with
              | none => exact .inr (.inr rfl)
              | some => rw [h0.1 rfl, h2.2 rfl] at hs; cases hs.2
        · cases ne with
          | true => exact .inr (.inl (h1.2 rfl))
          | false =>
            cases x0 with
            | some => exact .inl rfl
            | none =>
              cases x2 with
              | some => exact .inr (.inr rfl)
              | none => rw [h0.1 rfl, h2.1 rfl] at ho; cases ho
      · cases h
    · cases h
  · unfold polyArrayPattern at h
    split at h
    · next no yes m ne nt yt _ _ =>
      split at h
      · next hs =>
        cases h
        rw [Bool.and_eq_true] at hs
        refine withOLOO_safe hx fun x0 x1 x2 x3 h0 h1 h2 h3 => outR_safe (sh_arrayPattern (held_cond h0 h1 hs.1) (h1.1.mono hs.2)) fun r h => ?_
        show Ok _ r
        cases yt with
        | true => exact h.1
        | false =>
          refine h.2 ?_
          cases x2 with
          | none => rfl
          | some => cases h2.2 rfl
      · cases h
    · cases h
  · unfold polyCompstmt at h
    split at h
    · next m ne =>
      split at h
      · next hs =>
        cases h
        refine withL_safe hx fun x0 h0 => outR_safe (sh_compstmt hs h0.1) fun r h => ⟨h.1, fun ho => h.2 (h0.2 (by simpa using ho))⟩
      · cases h
    · cases h
  · unfold polyBegin at h
    split at h
    · next m opt =>
      split at h
      · next hs =>
        cases h
        rw [Bool.and_eq_true] at hs
        exact withTPT_safe hx fun x0 x1 x2 h1 => outp_safe (sh_begin_mlhs hs.2 (h1.2 (by simpa using hs.1)) h1.1 : Ok _ _)
      · split at h
        · next hs =>
          cases h
          exact withTPT_safe hx fun x0 x1 x2 h1 => outp_safe (sh_begin hs h1.1 : Ok _ _)
        · cases h
    · cases h
  · split at h
    · cases h; exact withN_safe hx fun x0 h0 => outM_safe (sh_accessible h0) fun _ h => h
    · cases h
  · unfold polyAssignable at h
    split at h
    · split at h
      · next hs => cases h; exact withN_safe hx fun x0 h0 => outB_safe (sh_assignable_var (Ok.mono h0 hs)) fun _ h => h
      · split at h
        · next hs => cases h; exact withN_safe hx fun x0 h0 => outB_safe (sh_assignable (Ok.mono h0 hs)) fun _ h => h
        · cases h
    · cases h
  · unfold polyProcargs at h
    split at h
    · next a x b y =>
      have ne : ∀ {x0 x1 : List Node}, (Abs.nodes a x).Has (.nodes x0) → (Abs.nodes b y).Has (.nodes x1) → (x || y) = true →
          x0 ≠ [] ∨ x1 ≠ [] := fun h0 h1 hc => by
        rw [Bool.or_eq_true] at hc
        exact hc.imp h0.2 h1.2
      split at h
      · next hs =>
        cases h
        have hs : ∀ {x0 x1 : List Node}, (Abs.nodes a x).Has (.nodes x0) → (Abs.nodes b y).Has (.nodes x1) → x1 ≠ [] ∨ x0 = [] := fun h0 h1 => by
          rw [Bool.or_eq_true, beq_iff_eq] at hs
          rcases hs with hs | hs
          · exact .inl (h1.2 hs)
          · subst hs; exact .inr (okl_zero h0.1)
        refine withLL_safe hx fun x0 x1 h0 h1 => outR_safe (sh_procargs h0.1 h1.1 ((hs h0 h1).imp id .inl)) fun r h => ?_
        exact ⟨h.2.2 (hs h0 h1), fun hc => h.2.1 (ne h0 h1 hc)⟩
      · split at h
        · next hs =>
          cases h
          refine withLL_safe hx fun x0 x1 h0 h1 => outR_safe (sh_procargs h0.1 h1.1 (.inr (.inr hs))) fun r h => ?_
          exact ⟨h.1, fun hc => h.2.1 (ne h0 h1 hc)⟩
        · cases h
    · cases h
  · split at h
    · obtain ⟨h1, h2, rfl⟩ := polySend_some h
      refine withNTTL_safe hx fun x0 x1 x2 x3 h0 h3 =>
        outR_safe (callMethod_safe (oko_some.2 (Ok.mono h0 h1)) (.inl rfl) (h3.1.mono h2)) fun r hr => sendK_has h3.1 hr
    · cases h
  · split at h
    · obtain ⟨h1, h2, rfl⟩ := polySend_some h
      refine withNTTTLT_safe hx fun x0 x1 x2 x3 x4 x5 h0 h4 =>
        outR_safe (callMethod_safe (oko_some.2 (Ok.mono h0 h1)) (.inl rfl) (h4.1.mono h2)) fun r hr => sendK_has h4.1 hr
    · cases h
  · split at h
    · obtain ⟨h1, h2, rfl⟩ := polySend_some h
      refine withNTTLT_safe hx fun x0 x1 x2 x3 x4 h0 h3 =>
        outR_safe (callMethod_safe (oko_some.2 (Ok.mono h0 h1)) (.inr ⟨rfl, rfl⟩) (h3.1.mono h2)) fun r hr => sendK_has h3.1 hr
    · cases h
  · split at h
    · obtain ⟨h2, rfl⟩ := polyCall_some h
      refine withTL_safe hx fun x0 x1 h1 =>
        outR_safe (callMethod_safe oko_none (.inl rfl) (h1.1.mono h2)) fun r hr => sendK_has h1.1 hr
    · cases h
  · split at h
    · obtain ⟨h2, rfl⟩ := polyCall_some h
      refine withTTLT_safe hx fun x0 x1 x2 x3 h1 =>
        outR_safe (callMethod_safe oko_none (.inl rfl) (h1.1.mono h2)) fun r hr => sendK_has h1.1 hr
    · cases h
  · unfold polyBlock at h
    split at h
    · split at h
      · next hs =>
        rw [Bool.and_eq_true] at hs
        split at h
        · next hc =>
          cases h
          exact withNTAPT_safe hx fun x0 x1 x2 x3 x4 h0 h2 h3 =>
            outB_safe (sh_block_callee (Ok.mono h0 hc) (ArgsOk.mono h2 hs.1) (h3.1.mono hs.2)) fun _ h => h
        · split at h
          · next hc =>
            cases h
            exact withNTAPT_safe hx fun x0 x1 x2 x3 x4 h0 h2 h3 =>
              outB_safe (sh_block_cmd (Ok.mono h0 hc) (ArgsOk.mono h2 hs.1) (h3.1.mono hs.2)) fun _ h => h
          · cases h
      · cases h
    · cases h
  · split at h
    · exact withTL_safe hx fun x0 x1 h1 => polyJump_safe h h1
    · cases h
  · split at h
    · exact withTTLT_safe hx fun x0 x1 x2 x3 h1 => polyJump_safe h h1
    · cases h
  · cases h

theorem fn_safe {ext : BldExt} {indent : Int} {f : BFn} {as : List Abs} {o : Abs} {xs : List Atom} (h : f.gives as = some o)
    (hx : HasL as xs) : BldR.Safe (f.Dedents indent xs) (applyFn ext indent f xs) o.Has := by
  unfold BFn.gives at h
  split at h
  · next hm =>
    split at h
    · next hl => cases h; exact mono_safe hm (hx.le hl)
    · cases h
  · exact poly_safe h hx

end Verif
