import Verif.Lemmas.ScopeSum
/-!
Additive predicates on each kind of plain node. Written by tools/scope/gen_add.py.
-/
set_option linter.unusedSimpArgs false
namespace Verif
open Builder Grammar ScopeSpec
variable {Q : Node → Prop}

theorem Additive.Alias (h : Additive Q) {x0 x1 y2 y3} : Q (.Alias x0 x1 y2 y3) ↔ Q x0 ∨ Q x1 :=
  (h _ rfl).trans (by simp [Node.children, or_assoc])
theorem Additive.And (h : Additive Q) {x0 x1 y2 y3} : Q (.And x0 x1 y2 y3) ↔ Q x0 ∨ Q x1 :=
  (h _ rfl).trans (by simp [Node.children, or_assoc])
theorem Wide.AndAsgn (h : Wide Q) {x0 x1 y2 y3} : Q (.AndAsgn x0 x1 y2 y3) ↔ Q x0 ∨ Q x1 :=
  (h.asgn _ rfl).trans (by simp [Node.children, or_assoc])
theorem Additive.Args (h : Additive Q) {x0 y1 y2 y3} : Q (.Args x0 y1 y2 y3) ↔ Some_ Q x0 :=
  (h _ rfl).trans (by simp [Node.children, or_assoc])
theorem Additive.Array (h : Additive Q) {x0 y1 y2 y3} : Q (.Array x0 y1 y2 y3) ↔ Some_ Q x0 :=
  (h _ rfl).trans (by simp [Node.children, or_assoc])
theorem Additive.ArrayPattern (h : Additive Q) {x0 y1 y2 y3} : Q (.ArrayPattern x0 y1 y2 y3) ↔ Some_ Q x0 :=
  (h _ rfl).trans (by simp [Node.children, or_assoc])
theorem Additive.ArrayPatternWithTail (h : Additive Q) {x0 y1 y2 y3} : Q (.ArrayPatternWithTail x0 y1 y2 y3) ↔ Some_ Q x0 :=
  (h _ rfl).trans (by simp [Node.children, or_assoc])
theorem Additive.BackRef (h : Additive Q) {y0 y1} : Q (.BackRef y0 y1) ↔ _root_.False :=
  (h _ rfl).trans (by simp [Node.children, or_assoc])
theorem Additive.Begin (h : Additive Q) {x0 y1 y2 y3} : Q (.Begin x0 y1 y2 y3) ↔ Some_ Q x0 :=
  (h _ rfl).trans (by simp [Node.children, or_assoc])
theorem Additive.BlockPass (h : Additive Q) {x0 y1 y2} : Q (.BlockPass x0 y1 y2) ↔ Some_ Q x0.toList :=
  (h _ rfl).trans (by simp [Node.children, or_assoc])
theorem Additive.Break (h : Additive Q) {x0 y1 y2} : Q (.Break x0 y1 y2) ↔ Some_ Q x0 :=
  (h _ rfl).trans (by simp [Node.children, or_assoc])
theorem Additive.Case (h : Additive Q) {x0 x1 x2 y3 y4 y5 y6} : Q (.Case x0 x1 x2 y3 y4 y5 y6) ↔ Some_ Q x0.toList ∨ Some_ Q x1 ∨ Some_ Q x2.toList :=
  (h _ rfl).trans (by simp [Node.children, or_assoc])
theorem Additive.CaseMatch (h : Additive Q) {x0 x1 x2 y3 y4 y5 y6} : Q (.CaseMatch x0 x1 x2 y3 y4 y5 y6) ↔ Q x0 ∨ Some_ Q x1 ∨ Some_ Q x2.toList :=
  (h _ rfl).trans (by simp [Node.children, or_assoc])
theorem Wide.Casgn (h : Wide Q) {x0 y1 x2 y3 y4 y5 y6} : Q (.Casgn x0 y1 x2 y3 y4 y5 y6) ↔ Some_ Q x0.toList ∨ Some_ Q x2.toList :=
  (h.asgn _ rfl).trans (by simp [Node.children, or_assoc])
theorem Additive.Cbase (h : Additive Q) {y0} : Q (.Cbase y0) ↔ _root_.False :=
  (h _ rfl).trans (by simp [Node.children, or_assoc])
theorem Additive.Complex (h : Additive Q) {y0 y1 y2} : Q (.Complex y0 y1 y2) ↔ _root_.False :=
  (h _ rfl).trans (by simp [Node.children, or_assoc])
theorem Additive.Const (h : Additive Q) {x0 y1 y2 y3 y4} : Q (.Const x0 y1 y2 y3 y4) ↔ Some_ Q x0.toList :=
  (h _ rfl).trans (by simp [Node.children, or_assoc])
theorem Additive.ConstPattern (h : Additive Q) {x0 x1 y2 y3 y4} : Q (.ConstPattern x0 x1 y2 y3 y4) ↔ Q x0 ∨ Q x1 :=
  (h _ rfl).trans (by simp [Node.children, or_assoc])
theorem Additive.CSend (h : Additive Q) {x0 y1 x2 y3 y4 y5 y6 y7 y8} : Q (.CSend x0 y1 x2 y3 y4 y5 y6 y7 y8) ↔ Q x0 ∨ Some_ Q x2 :=
  (h _ rfl).trans (by simp [Node.children, or_assoc])
theorem Additive.Cvar (h : Additive Q) {y0 y1} : Q (.Cvar y0 y1) ↔ _root_.False :=
  (h _ rfl).trans (by simp [Node.children, or_assoc])
theorem Additive.Cvasgn (h : Additive Q) {y0 x1 y2 y3 y4} : Q (.Cvasgn y0 x1 y2 y3 y4) ↔ Some_ Q x1.toList :=
  (h _ rfl).trans (by simp [Node.children, or_assoc])
theorem Additive.Defined (h : Additive Q) {x0 y1 y2 y3 y4} : Q (.Defined x0 y1 y2 y3 y4) ↔ Q x0 :=
  (h _ rfl).trans (by simp [Node.children, or_assoc])
theorem Additive.Dstr (h : Additive Q) {x0 y1 y2 y3} : Q (.Dstr x0 y1 y2 y3) ↔ Some_ Q x0 :=
  (h _ rfl).trans (by simp [Node.children, or_assoc])
theorem Additive.Dsym (h : Additive Q) {x0 y1 y2 y3} : Q (.Dsym x0 y1 y2 y3) ↔ Some_ Q x0 :=
  (h _ rfl).trans (by simp [Node.children, or_assoc])
theorem Additive.EFlipFlop (h : Additive Q) {x0 x1 y2 y3} : Q (.EFlipFlop x0 x1 y2 y3) ↔ Some_ Q x0.toList ∨ Some_ Q x1.toList :=
  (h _ rfl).trans (by simp [Node.children, or_assoc])
theorem Additive.EmptyElse (h : Additive Q) {y0} : Q (.EmptyElse y0) ↔ _root_.False :=
  (h _ rfl).trans (by simp [Node.children, or_assoc])
theorem Additive.Encoding (h : Additive Q) {y0} : Q (.Encoding y0) ↔ _root_.False :=
  (h _ rfl).trans (by simp [Node.children, or_assoc])
theorem Additive.Ensure (h : Additive Q) {x0 x1 y2 y3} : Q (.Ensure x0 x1 y2 y3) ↔ Some_ Q x0.toList ∨ Some_ Q x1.toList :=
  (h _ rfl).trans (by simp [Node.children, or_assoc])
theorem Additive.Erange (h : Additive Q) {x0 x1 y2 y3} : Q (.Erange x0 x1 y2 y3) ↔ Some_ Q x0.toList ∨ Some_ Q x1.toList :=
  (h _ rfl).trans (by simp [Node.children, or_assoc])
theorem Additive.False (h : Additive Q) {y0} : Q (.False y0) ↔ _root_.False :=
  (h _ rfl).trans (by simp [Node.children, or_assoc])
theorem Additive.File (h : Additive Q) {y0} : Q (.File y0) ↔ _root_.False :=
  (h _ rfl).trans (by simp [Node.children, or_assoc])
theorem Additive.FindPattern (h : Additive Q) {x0 y1 y2 y3} : Q (.FindPattern x0 y1 y2 y3) ↔ Some_ Q x0 :=
  (h _ rfl).trans (by simp [Node.children, or_assoc])
theorem Additive.Float (h : Additive Q) {y0 y1 y2} : Q (.Float y0 y1 y2) ↔ _root_.False :=
  (h _ rfl).trans (by simp [Node.children, or_assoc])
theorem Additive.For (h : Additive Q) {x0 x1 x2 y3 y4 y5 y6 y7} : Q (.For x0 x1 x2 y3 y4 y5 y6 y7) ↔ Q x0 ∨ Q x1 ∨ Some_ Q x2.toList :=
  (h _ rfl).trans (by simp [Node.children, or_assoc])
theorem Additive.ForwardArg (h : Additive Q) {y0} : Q (.ForwardArg y0) ↔ _root_.False :=
  (h _ rfl).trans (by simp [Node.children, or_assoc])
theorem Additive.ForwardedArgs (h : Additive Q) {y0} : Q (.ForwardedArgs y0) ↔ _root_.False :=
  (h _ rfl).trans (by simp [Node.children, or_assoc])
theorem Additive.Gvar (h : Additive Q) {y0 y1} : Q (.Gvar y0 y1) ↔ _root_.False :=
  (h _ rfl).trans (by simp [Node.children, or_assoc])
theorem Additive.Gvasgn (h : Additive Q) {y0 x1 y2 y3 y4} : Q (.Gvasgn y0 x1 y2 y3 y4) ↔ Some_ Q x1.toList :=
  (h _ rfl).trans (by simp [Node.children, or_assoc])
theorem Additive.Hash (h : Additive Q) {x0 y1 y2 y3} : Q (.Hash x0 y1 y2 y3) ↔ Some_ Q x0 :=
  (h _ rfl).trans (by simp [Node.children, or_assoc])
theorem Additive.HashPattern (h : Additive Q) {x0 y1 y2 y3} : Q (.HashPattern x0 y1 y2 y3) ↔ Some_ Q x0 :=
  (h _ rfl).trans (by simp [Node.children, or_assoc])
theorem Additive.Heredoc (h : Additive Q) {x0 y1 y2 y3} : Q (.Heredoc x0 y1 y2 y3) ↔ Some_ Q x0 :=
  (h _ rfl).trans (by simp [Node.children, or_assoc])
theorem Additive.If (h : Additive Q) {x0 x1 x2 y3 y4 y5 y6 y7} : Q (.If x0 x1 x2 y3 y4 y5 y6 y7) ↔ Q x0 ∨ Some_ Q x1.toList ∨ Some_ Q x2.toList :=
  (h _ rfl).trans (by simp [Node.children, or_assoc])
theorem Additive.IfGuard (h : Additive Q) {x0 y1 y2} : Q (.IfGuard x0 y1 y2) ↔ Q x0 :=
  (h _ rfl).trans (by simp [Node.children, or_assoc])
theorem Additive.IfMod (h : Additive Q) {x0 x1 x2 y3 y4} : Q (.IfMod x0 x1 x2 y3 y4) ↔ Q x0 ∨ Some_ Q x1.toList ∨ Some_ Q x2.toList :=
  (h _ rfl).trans (by simp [Node.children, or_assoc])
theorem Additive.IfTernary (h : Additive Q) {x0 x1 x2 y3 y4 y5} : Q (.IfTernary x0 x1 x2 y3 y4 y5) ↔ Q x0 ∨ Q x1 ∨ Q x2 :=
  (h _ rfl).trans (by simp [Node.children, or_assoc])
theorem Additive.IFlipFlop (h : Additive Q) {x0 x1 y2 y3} : Q (.IFlipFlop x0 x1 y2 y3) ↔ Some_ Q x0.toList ∨ Some_ Q x1.toList :=
  (h _ rfl).trans (by simp [Node.children, or_assoc])
theorem Additive.Index (h : Additive Q) {x0 x1 y2 y3 y4} : Q (.Index x0 x1 y2 y3 y4) ↔ Q x0 ∨ Some_ Q x1 :=
  (h _ rfl).trans (by simp [Node.children, or_assoc])
theorem Additive.IndexAsgn (h : Additive Q) {x0 x1 x2 y3 y4 y5 y6} : Q (.IndexAsgn x0 x1 x2 y3 y4 y5 y6) ↔ Q x0 ∨ Some_ Q x1 ∨ Some_ Q x2.toList :=
  (h _ rfl).trans (by simp [Node.children, or_assoc])
theorem Additive.InPattern (h : Additive Q) {x0 x1 x2 y3 y4 y5} : Q (.InPattern x0 x1 x2 y3 y4 y5) ↔ Q x0 ∨ Some_ Q x1.toList ∨ Some_ Q x2.toList :=
  (h _ rfl).trans (by simp [Node.children, or_assoc])
theorem Additive.Int (h : Additive Q) {y0 y1 y2} : Q (.Int y0 y1 y2) ↔ _root_.False :=
  (h _ rfl).trans (by simp [Node.children, or_assoc])
theorem Additive.Irange (h : Additive Q) {x0 x1 y2 y3} : Q (.Irange x0 x1 y2 y3) ↔ Some_ Q x0.toList ∨ Some_ Q x1.toList :=
  (h _ rfl).trans (by simp [Node.children, or_assoc])
theorem Additive.Ivar (h : Additive Q) {y0 y1} : Q (.Ivar y0 y1) ↔ _root_.False :=
  (h _ rfl).trans (by simp [Node.children, or_assoc])
theorem Additive.Ivasgn (h : Additive Q) {y0 x1 y2 y3 y4} : Q (.Ivasgn y0 x1 y2 y3 y4) ↔ Some_ Q x1.toList :=
  (h _ rfl).trans (by simp [Node.children, or_assoc])
theorem Additive.Kwargs (h : Additive Q) {x0 y1} : Q (.Kwargs x0 y1) ↔ Some_ Q x0 :=
  (h _ rfl).trans (by simp [Node.children, or_assoc])
theorem Additive.KwBegin (h : Additive Q) {x0 y1 y2 y3} : Q (.KwBegin x0 y1 y2 y3) ↔ Some_ Q x0 :=
  (h _ rfl).trans (by simp [Node.children, or_assoc])
theorem Additive.Kwnilarg (h : Additive Q) {y0 y1} : Q (.Kwnilarg y0 y1) ↔ _root_.False :=
  (h _ rfl).trans (by simp [Node.children, or_assoc])
theorem Additive.Kwsplat (h : Additive Q) {x0 y1 y2} : Q (.Kwsplat x0 y1 y2) ↔ Q x0 :=
  (h _ rfl).trans (by simp [Node.children, or_assoc])
theorem Additive.Lambda (h : Additive Q) {y0} : Q (.Lambda y0) ↔ _root_.False :=
  (h _ rfl).trans (by simp [Node.children, or_assoc])
theorem Additive.Line (h : Additive Q) {y0} : Q (.Line y0) ↔ _root_.False :=
  (h _ rfl).trans (by simp [Node.children, or_assoc])
theorem Additive.Masgn (h : Additive Q) {x0 x1 y2 y3} : Q (.Masgn x0 x1 y2 y3) ↔ Q x0 ∨ Q x1 :=
  (h _ rfl).trans (by simp [Node.children, or_assoc])
theorem Additive.MatchAlt (h : Additive Q) {x0 x1 y2 y3} : Q (.MatchAlt x0 x1 y2 y3) ↔ Q x0 ∨ Q x1 :=
  (h _ rfl).trans (by simp [Node.children, or_assoc])
theorem Additive.MatchAs (h : Additive Q) {x0 x1 y2 y3} : Q (.MatchAs x0 x1 y2 y3) ↔ Q x0 ∨ Q x1 :=
  (h _ rfl).trans (by simp [Node.children, or_assoc])
theorem Additive.MatchCurrentLine (h : Additive Q) {x0 y1} : Q (.MatchCurrentLine x0 y1) ↔ Q x0 :=
  (h _ rfl).trans (by simp [Node.children, or_assoc])
theorem Additive.MatchNilPattern (h : Additive Q) {y0 y1 y2} : Q (.MatchNilPattern y0 y1 y2) ↔ _root_.False :=
  (h _ rfl).trans (by simp [Node.children, or_assoc])
theorem Additive.MatchPattern (h : Additive Q) {x0 x1 y2 y3} : Q (.MatchPattern x0 x1 y2 y3) ↔ Q x0 ∨ Q x1 :=
  (h _ rfl).trans (by simp [Node.children, or_assoc])
theorem Additive.MatchPatternP (h : Additive Q) {x0 x1 y2 y3} : Q (.MatchPatternP x0 x1 y2 y3) ↔ Q x0 ∨ Q x1 :=
  (h _ rfl).trans (by simp [Node.children, or_assoc])
theorem Additive.MatchRest (h : Additive Q) {x0 y1 y2} : Q (.MatchRest x0 y1 y2) ↔ Some_ Q x0.toList :=
  (h _ rfl).trans (by simp [Node.children, or_assoc])
theorem Additive.Mlhs (h : Additive Q) {x0 y1 y2 y3} : Q (.Mlhs x0 y1 y2 y3) ↔ Some_ Q x0 :=
  (h _ rfl).trans (by simp [Node.children, or_assoc])
theorem Additive.Next (h : Additive Q) {x0 y1 y2} : Q (.Next x0 y1 y2) ↔ Some_ Q x0 :=
  (h _ rfl).trans (by simp [Node.children, or_assoc])
theorem Additive.Nil (h : Additive Q) {y0} : Q (.Nil y0) ↔ _root_.False :=
  (h _ rfl).trans (by simp [Node.children, or_assoc])
theorem Additive.NthRef (h : Additive Q) {y0 y1} : Q (.NthRef y0 y1) ↔ _root_.False :=
  (h _ rfl).trans (by simp [Node.children, or_assoc])
theorem Wide.OpAsgn (h : Wide Q) {x0 y1 x2 y3 y4} : Q (.OpAsgn x0 y1 x2 y3 y4) ↔ Q x0 ∨ Q x2 :=
  (h.asgn _ rfl).trans (by simp [Node.children, or_assoc])
theorem Additive.Or (h : Additive Q) {x0 x1 y2 y3} : Q (.Or x0 x1 y2 y3) ↔ Q x0 ∨ Q x1 :=
  (h _ rfl).trans (by simp [Node.children, or_assoc])
theorem Wide.OrAsgn (h : Wide Q) {x0 x1 y2 y3} : Q (.OrAsgn x0 x1 y2 y3) ↔ Q x0 ∨ Q x1 :=
  (h.asgn _ rfl).trans (by simp [Node.children, or_assoc])
theorem Additive.Pair (h : Additive Q) {x0 x1 y2 y3} : Q (.Pair x0 x1 y2 y3) ↔ Q x0 ∨ Q x1 :=
  (h _ rfl).trans (by simp [Node.children, or_assoc])
theorem Additive.Pin (h : Additive Q) {x0 y1 y2} : Q (.Pin x0 y1 y2) ↔ Q x0 :=
  (h _ rfl).trans (by simp [Node.children, or_assoc])
theorem Additive.Postexe (h : Additive Q) {x0 y1 y2 y3 y4} : Q (.Postexe x0 y1 y2 y3 y4) ↔ Some_ Q x0.toList :=
  (h _ rfl).trans (by simp [Node.children, or_assoc])
theorem Additive.Preexe (h : Additive Q) {x0 y1 y2 y3 y4} : Q (.Preexe x0 y1 y2 y3 y4) ↔ Some_ Q x0.toList :=
  (h _ rfl).trans (by simp [Node.children, or_assoc])
theorem Additive.Procarg0 (h : Additive Q) {x0 y1 y2 y3} : Q (.Procarg0 x0 y1 y2 y3) ↔ Some_ Q x0 :=
  (h _ rfl).trans (by simp [Node.children, or_assoc])
theorem Additive.Rational (h : Additive Q) {y0 y1 y2} : Q (.Rational y0 y1 y2) ↔ _root_.False :=
  (h _ rfl).trans (by simp [Node.children, or_assoc])
theorem Additive.Redo (h : Additive Q) {y0} : Q (.Redo y0) ↔ _root_.False :=
  (h _ rfl).trans (by simp [Node.children, or_assoc])
theorem Additive.RegOpt (h : Additive Q) {y0 y1} : Q (.RegOpt y0 y1) ↔ _root_.False :=
  (h _ rfl).trans (by simp [Node.children, or_assoc])
theorem Additive.Regexp (h : Additive Q) {x0 x1 y2 y3 y4} : Q (.Regexp x0 x1 y2 y3 y4) ↔ Some_ Q x0 ∨ Some_ Q x1.toList :=
  (h _ rfl).trans (by simp [Node.children, or_assoc])
theorem Additive.Rescue (h : Additive Q) {x0 x1 x2 y3 y4} : Q (.Rescue x0 x1 x2 y3 y4) ↔ Some_ Q x0.toList ∨ Some_ Q x1 ∨ Some_ Q x2.toList :=
  (h _ rfl).trans (by simp [Node.children, or_assoc])
theorem Additive.RescueBody (h : Additive Q) {x0 x1 x2 y3 y4 y5 y6} : Q (.RescueBody x0 x1 x2 y3 y4 y5 y6) ↔ Some_ Q x0.toList ∨ Some_ Q x1.toList ∨ Some_ Q x2.toList :=
  (h _ rfl).trans (by simp [Node.children, or_assoc])
theorem Additive.Retry (h : Additive Q) {y0} : Q (.Retry y0) ↔ _root_.False :=
  (h _ rfl).trans (by simp [Node.children, or_assoc])
theorem Additive.Return (h : Additive Q) {x0 y1 y2} : Q (.Return x0 y1 y2) ↔ Some_ Q x0 :=
  (h _ rfl).trans (by simp [Node.children, or_assoc])
theorem Additive.Self_ (h : Additive Q) {y0} : Q (.Self_ y0) ↔ _root_.False :=
  (h _ rfl).trans (by simp [Node.children, or_assoc])
theorem Additive.Send (h : Additive Q) {x0 y1 x2 y3 y4 y5 y6 y7 y8} : Q (.Send x0 y1 x2 y3 y4 y5 y6 y7 y8) ↔ Some_ Q x0.toList ∨ Some_ Q x2 :=
  (h _ rfl).trans (by simp [Node.children, or_assoc])
theorem Additive.Splat (h : Additive Q) {x0 y1 y2} : Q (.Splat x0 y1 y2) ↔ Some_ Q x0.toList :=
  (h _ rfl).trans (by simp [Node.children, or_assoc])
theorem Additive.Str (h : Additive Q) {y0 y1 y2 y3} : Q (.Str y0 y1 y2 y3) ↔ _root_.False :=
  (h _ rfl).trans (by simp [Node.children, or_assoc])
theorem Additive.Super (h : Additive Q) {x0 y1 y2 y3 y4} : Q (.Super x0 y1 y2 y3 y4) ↔ Some_ Q x0 :=
  (h _ rfl).trans (by simp [Node.children, or_assoc])
theorem Additive.Sym (h : Additive Q) {y0 y1 y2 y3} : Q (.Sym y0 y1 y2 y3) ↔ _root_.False :=
  (h _ rfl).trans (by simp [Node.children, or_assoc])
theorem Additive.True (h : Additive Q) {y0} : Q (.True y0) ↔ _root_.False :=
  (h _ rfl).trans (by simp [Node.children, or_assoc])
theorem Additive.Undef (h : Additive Q) {x0 y1 y2} : Q (.Undef x0 y1 y2) ↔ Some_ Q x0 :=
  (h _ rfl).trans (by simp [Node.children, or_assoc])
theorem Additive.UnlessGuard (h : Additive Q) {x0 y1 y2} : Q (.UnlessGuard x0 y1 y2) ↔ Q x0 :=
  (h _ rfl).trans (by simp [Node.children, or_assoc])
theorem Additive.Until (h : Additive Q) {x0 x1 y2 y3 y4 y5} : Q (.Until x0 x1 y2 y3 y4 y5) ↔ Q x0 ∨ Some_ Q x1.toList :=
  (h _ rfl).trans (by simp [Node.children, or_assoc])
theorem Additive.UntilPost (h : Additive Q) {x0 x1 y2 y3} : Q (.UntilPost x0 x1 y2 y3) ↔ Q x0 ∨ Q x1 :=
  (h _ rfl).trans (by simp [Node.children, or_assoc])
theorem Additive.When (h : Additive Q) {x0 x1 y2 y3 y4} : Q (.When x0 x1 y2 y3 y4) ↔ Some_ Q x0 ∨ Some_ Q x1.toList :=
  (h _ rfl).trans (by simp [Node.children, or_assoc])
theorem Additive.While (h : Additive Q) {x0 x1 y2 y3 y4 y5} : Q (.While x0 x1 y2 y3 y4 y5) ↔ Q x0 ∨ Some_ Q x1.toList :=
  (h _ rfl).trans (by simp [Node.children, or_assoc])
theorem Additive.WhilePost (h : Additive Q) {x0 x1 y2 y3} : Q (.WhilePost x0 x1 y2 y3) ↔ Q x0 ∨ Q x1 :=
  (h _ rfl).trans (by simp [Node.children, or_assoc])
theorem Additive.XHeredoc (h : Additive Q) {x0 y1 y2 y3} : Q (.XHeredoc x0 y1 y2 y3) ↔ Some_ Q x0 :=
  (h _ rfl).trans (by simp [Node.children, or_assoc])
theorem Additive.Xstr (h : Additive Q) {x0 y1 y2 y3} : Q (.Xstr x0 y1 y2 y3) ↔ Some_ Q x0 :=
  (h _ rfl).trans (by simp [Node.children, or_assoc])
theorem Additive.Yield (h : Additive Q) {x0 y1 y2 y3 y4} : Q (.Yield x0 y1 y2 y3 y4) ↔ Some_ Q x0 :=
  (h _ rfl).trans (by simp [Node.children, or_assoc])
theorem Additive.ZSuper (h : Additive Q) {y0} : Q (.ZSuper y0) ↔ _root_.False :=
  (h _ rfl).trans (by simp [Node.children, or_assoc])

/-- Rewriting with all of these. -/
macro "adds" h:term : tactic => `(tactic| simp only [Atom.trees, List.flatMap_cons, List.flatMap_nil, List.append_nil, List.nil_append, some_cons,
  some_nil, some_append, Option.toList_some, Option.toList_none, or_false, false_or,
  ($h).Alias, ($h).And, ($h).Args, ($h).Array, ($h).ArrayPattern, ($h).ArrayPatternWithTail,
  ($h).BackRef, ($h).Begin, ($h).BlockPass, ($h).Break, ($h).Case, ($h).CaseMatch, ($h).Cbase,
  ($h).Complex, ($h).Const, ($h).ConstPattern, ($h).CSend, ($h).Cvar, ($h).Cvasgn, ($h).Defined, ($h).Dstr, ($h).Dsym,
  ($h).EFlipFlop, ($h).EmptyElse, ($h).Encoding, ($h).Ensure, ($h).Erange, ($h).False, ($h).File, ($h).FindPattern,
  ($h).Float, ($h).For, ($h).ForwardArg, ($h).ForwardedArgs, ($h).Gvar, ($h).Gvasgn, ($h).Hash, ($h).HashPattern,
  ($h).Heredoc, ($h).If, ($h).IfGuard, ($h).IfMod, ($h).IfTernary, ($h).IFlipFlop, ($h).Index, ($h).IndexAsgn,
  ($h).InPattern, ($h).Int, ($h).Irange, ($h).Ivar, ($h).Ivasgn, ($h).Kwargs, ($h).KwBegin, ($h).Kwnilarg,
  ($h).Kwsplat, ($h).Lambda, ($h).Line, ($h).Masgn, ($h).MatchAlt, ($h).MatchAs, ($h).MatchCurrentLine,
  ($h).MatchNilPattern, ($h).MatchPattern, ($h).MatchPatternP, ($h).MatchRest, ($h).Mlhs, ($h).Next, ($h).Nil,
  ($h).NthRef, ($h).Or, ($h).Pair, ($h).Pin, ($h).Postexe, ($h).Preexe, ($h).Procarg0,
  ($h).Rational, ($h).Redo, ($h).RegOpt, ($h).Regexp, ($h).Rescue, ($h).RescueBody, ($h).Retry, ($h).Return,
  ($h).Self_, ($h).Send, ($h).Splat, ($h).Str, ($h).Super, ($h).Sym, ($h).True, ($h).Undef, ($h).UnlessGuard,
  ($h).Until, ($h).UntilPost, ($h).When, ($h).While, ($h).WhilePost, ($h).XHeredoc, ($h).Xstr, ($h).Yield, ($h).ZSuper])

end Verif
