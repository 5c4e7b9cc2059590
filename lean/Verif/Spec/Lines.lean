import Verif.Spec.Operators
import Verif.Spec.Variables
import Verif.Spec.Number
import Verif.Spec.Quoted
import Verif.Spec.Escapes
import Verif.Model.Lexer.Core
/-! Specification of lines of code: the tokens they consist of, and where they stand. -/
namespace Verif.LineSpec
open OpSpec NameSpec NumberSpec QuoteSpec EscapeSpec

/-- Blanks within a line. -/
def Blanks (bs : Bytes) : Prop := ∀ c ∈ bs, c = asc ' ' ∨ c = 9 ∨ c = 12 ∨ c = 11

/-- The token of a kind of numbers. -/
def numberTok : Kind → Tok
  | .integer => .tINTEGER
  | .float => .tFLOAT
  | .rational => .tRATIONAL
  | .imaginary => .tIMAGINARY

/-- `rest` does not continue a number; a dot must be followed by something other than a digit. -/
def NumberEnds (rest : Bytes) : Prop :=
  ∀ c, rest.head? = some c → NumberSpec.Stops c ∧ (c = asc '.' → ∃ d, rest.tail.head? = some d ∧ ¬ Digit d ∧ d ≠ 10 ∧ d ≠ 13)

/-- What is expected after a keyword. -/
def afterKeyword (st : LexState) : Option Place :=
  if st = EXPR_BEG then some .operand
  else if st = EXPR_END then some .operator
  else if st = EXPR_ARG then some .argument
  else none

/-- What is expected after a name that is not a keyword, by what was expected before it: after a declared variable and after a name that follows an
operand directly, an operator; otherwise the name may be a command. -/
def afterName (pl : Place) (variable_ : Bool) : Place :=
  match pl, variable_ with
  | .name, _ => .argument
  | .operator, _ => .operator
  | _, true => .operator
  | _, false => .argument

/-- The keyword `word` with its tokens, where `pl` is expected, and what is expected after it. -/
inductive Keyword : Place → String → Tok → Place → Prop where
  /-- where an operand is expected: the start of a construct -/
  | start {word t m st pl'} (kw : (word, t, m, st) ∈ keywords) (after : afterKeyword st = some pl') (not_do : word ≠ "do") : Keyword .operand word t pl'
  /-- elsewhere: keywords that have one token only -/
  | only {pl word t st pl'} (kw : (word, t, t, st) ∈ keywords) (after : afterKeyword st = some pl') (not_do : word ≠ "do") (place : pl = .operator ∨ pl = .argument) :
      Keyword pl word t pl'
  /-- elsewhere: modifiers -/
  | modifier {pl word t m st} (kw : (word, t, m, st) ∈ keywords) (two : t ≠ m) (place : pl = .operator ∨ pl = .argument) : Keyword pl word m .operand

/-- Keywords before a value that may be missing, and `class`. -/
inductive Jump : Place → String → Tok → Prop where
  /-- where an operand is expected -/
  | start {word t m st} (kw : (word, t, m, st) ∈ keywords) (after : st = EXPR_MID ∨ st = EXPR_CLASS) : Jump .operand word t
  /-- elsewhere: keywords that have one token only -/
  | only {pl word t st} (kw : (word, t, t, st) ∈ keywords) (after : st = EXPR_MID ∨ st = EXPR_CLASS) (place : pl = .operator ∨ pl = .argument) : Jump pl word t

/-- `text` begins with the value: not with the end of the line or a comment, and not with the letters of a modifier. -/
def Solid (text : Bytes) : Prop :=
  ∃ blanks c rest, text = blanks ++ c :: rest ∧ Blanks blanks ∧ ¬ Blanks [c] ∧ c ≠ 10 ∧ c ≠ asc '#' ∧
    ∀ k ∈ keywords, k.2.1 ≠ k.2.2.1 → ¬ ascs k.1 <+: c :: rest

/-- `text` begins with a name, a number, a variable, a literal in quotes or a symbol. -/
def Plain (text : Bytes) : Prop :=
  ∃ blanks c rest, text = blanks ++ c :: rest ∧ Blanks blanks ∧ (NameByte c ∨ c ∈ ascs "@$'\"" ∨ c = asc ':' ∧ rest.head? ≠ some (asc ':'))

/-- The line that `text` begins with does not continue the line before: it is not a comment, and it does not start with the call of a method. -/
def Begins (text : Bytes) : Prop :=
  ∃ blanks c rest, text = blanks ++ c :: rest ∧ Blanks blanks ∧ ¬ Blanks [c] ∧ c ≠ asc '#' ∧
    (c = asc '.' → rest.head? = some (asc '.')) ∧ (c = asc '&' → rest.head? ≠ some (asc '.'))

/-- Nothing, or a comment that cannot be a magic comment: those have a colon. -/
def Trailer (c : Bytes) : Prop := c = [] ∨ ∃ t, c = asc '#' :: t ∧ 10 ∉ t ∧ asc ':' ∉ t ∧ t.length + 1 < 2 ^ 31

/-- Blanks, comments and line ends. -/
inductive Gap : Bytes → Prop where
  | blanks {b} (blank : Blanks b) : Gap b
  | line {b com g} (blank : Blanks b) (comment : Trailer com) (next : Gap g) : Gap (b ++ (com ++ 10 :: g))

/-- The text of a literal in quotes, `rest` follows, and its value. -/
def Body (close : UInt8) (body v rest : Bytes) : Prop :=
  (close = asc '\'' ∧ content close none false 0 (body ++ close :: rest) = some (v, 0, close :: rest) ∧ AsciiEscapes body) ∨
  (close = asc '"' ∧ Denotes (ascs "89") close none 0 (body ++ close :: rest) v (close :: rest))

/-- The tokens of a literal after its opening quote; its text starts at `p`. -/
def litTokens (c : UInt8) (body v : Bytes) (p : Nat) : List Token :=
  (if body = [] then [] else [⟨.tSTRING_CONTENT, v, ⟨p, p + body.length⟩⟩]) ++ [⟨.tSTRING_END, [c], ⟨p + body.length, p + body.length + 1⟩⟩]

/-- The name `w` in a definition or a symbol, before `rest`: its token, and what is expected after it. -/
inductive DefName (upper : Nat → Bool) : (w rest : Bytes) → Tok → Place → Prop where
  /-- names, with an equals sign if they are names of setters -/
  | name {cps cp mark rest} (name : Name cps) (first : cps.head? = some cp) (not_end : Utf8.encodeAll cps ≠ ascs "__END__") (ends : Ends true mark rest)
      (keyword : ∀ k ∈ keywords, ascs k.1 ≠ Utf8.encodeAll cps ++ mark) : DefName upper (Utf8.encodeAll cps ++ mark) rest (kind mark (upper cp)) .operator
  /-- keywords: never as modifiers -/
  | keyword {cps mark rest word t m st} (name : Name cps) (ends : Ends true mark rest) (text : Utf8.encodeAll cps ++ mark = ascs word)
      (kw : (word, t, m, st) ∈ keywords) (not_do : word ≠ "do") : DefName upper (Utf8.encodeAll cps ++ mark) rest t .operator
  /-- operators -/
  | method {op t rest} (mem : (op, t) ∈ methodNames) (longest : LongestName op rest) (doc : ¬ ascs "=begin" <+: ascs op ++ rest) (here : op ≠ "<<") :
      DefName upper (ascs op) rest t .argument
  /-- variables -/
  | variable_ {v rest t st} (var : Variable true v rest t st) : DefName upper v rest t .operator

/-- `text`, which stands at position `p` of the source where `pl` is expected, consists of the tokens. `upper` and `declared` say which characters are
upper-case and which names are variables. -/
inductive Line (upper : Nat → Bool) (declared : List Nat → Bool) : (pl : Place) → (p : Nat) → (text : Bytes) → List Token → Prop where
  /-- nothing is left but blanks -/
  | done {pl p blanks} (blank : Blanks blanks) : Line upper declared pl p blanks []
  /-- an operator before its operand -/
  | prefix_ {p blanks op t pl' rest ts} (blank : Blanks blanks) (mem : (op, t, pl') ∈ prefixes) (longest : Longest op rest) (dots : op ≠ "...")
      (sign : op = "+" ∨ op = "-" → ∀ c, rest.head? = some c → ¬ Digit c)
      (next : Line upper declared pl' (p + blanks.length + op.length) rest ts) :
      Line upper declared .operand p (blanks ++ (ascs op ++ rest)) (⟨t, ascs op, ⟨p + blanks.length, p + blanks.length + op.length⟩⟩ :: ts)
  /-- the sign of a number -/
  | minus {p blanks d rest ts} (blank : Blanks blanks) (digit : Digit d) (next : Line upper declared .operand (p + blanks.length + 1) (d :: rest) ts) :
      Line upper declared .operand p (blanks ++ (asc '-' :: d :: rest)) (⟨.tUMINUS_NUM, ascs "-", ⟨p + blanks.length, p + blanks.length + 1⟩⟩ :: ts)
  /-- an operator after an operand -/
  | infix_ {p blanks op t pl' rest ts} (blank : Blanks blanks) (mem : (op, t, pl') ∈ infixes) (longest : Longest op rest) (paren : op ≠ "(")
      (dot : op = "." → ∀ c, rest.head? = some c → ¬ Digit c) (doc : ¬ ascs "=begin" <+: ascs op ++ rest)
      (next : Line upper declared pl' (p + blanks.length + op.length) rest ts) :
      Line upper declared .operator p (blanks ++ (ascs op ++ rest)) (⟨t, ascs op, ⟨p + blanks.length, p + blanks.length + op.length⟩⟩ :: ts)
  /-- an operator after a name that may be a command -/
  | command {p blanks op t pl' rest ts} (blank : Blanks blanks) (mem : (op, t, pl') ∈ infixes) (longest : Longest op rest)
      (usual : UsualArgument op blanks rest false)
      (next : Line upper declared pl' (p + blanks.length + op.length) rest ts) :
      Line upper declared .argument p (blanks ++ (ascs op ++ rest)) (⟨t, ascs op, ⟨p + blanks.length, p + blanks.length + op.length⟩⟩ :: ts)
  /-- an operator as the name of a method -/
  | method {p blanks op t rest ts} (blank : Blanks blanks) (mem : (op, t) ∈ methodNames) (longest : LongestName op rest) (doc : ¬ ascs "=begin" <+: ascs op ++ rest)
      (next : Line upper declared .argument (p + blanks.length + op.length) rest ts) :
      Line upper declared .name p (blanks ++ (ascs op ++ rest)) (⟨t, ascs op, ⟨p + blanks.length, p + blanks.length + op.length⟩⟩ :: ts)
  /-- a number -/
  | number {pl p blanks k w rest ts} (blank : Blanks blanks) (lit : Literal k w) (ends : NumberEnds rest)
      (next : Line upper declared .operator (p + blanks.length + w.length) rest ts) :
      Line upper declared pl p (blanks ++ (w ++ rest)) (⟨numberTok k, w, ⟨p + blanks.length, p + blanks.length + w.length⟩⟩ :: ts)
  /-- an instance, class or global variable -/
  | variable_ {pl p blanks v rest t st ts} (blank : Blanks blanks) (var : Variable false v rest t st)
      (next : Line upper declared .operator (p + blanks.length + v.length) rest ts) :
      Line upper declared pl p (blanks ++ (v ++ rest)) (⟨t, v, ⟨p + blanks.length, p + blanks.length + v.length⟩⟩ :: ts)
  /-- a literal in quotes without interpolation -/
  | string {pl p blanks q body v rest ts} (blank : Blanks blanks) (lit : Body q body v rest) (label : ¬ Colon rest)
      (next : Line upper declared .operator (p + blanks.length + 1 + body.length + 1) rest ts) :
      Line upper declared pl p (blanks ++ (q :: (body ++ q :: rest)))
        (⟨.tSTRING_BEG, [q], ⟨p + blanks.length, p + blanks.length + 1⟩⟩ :: (litTokens q body v (p + blanks.length + 1) ++ ts))
  /-- a symbol -/
  | symbol {pl p blanks w rest t pl' ts} (blank : Blanks blanks) (place : pl = .operand ∨ pl = .argument) (name : DefName upper w rest t pl')
      (next : Line upper declared pl' (p + blanks.length + 1 + w.length) rest ts) :
      Line upper declared pl p (blanks ++ (asc ':' :: (w ++ rest)))
        (⟨.tSYMBEG, [asc ':'], ⟨p + blanks.length, p + blanks.length + 1⟩⟩ :: ⟨t, w, ⟨p + blanks.length + 1, p + blanks.length + 1 + w.length⟩⟩ :: ts)
  /-- `def` and the name of the method -/
  | definition {pl p blanks sep w rest t pl' ts} (blank : Blanks blanks) (place : pl ≠ .name) (spaced : Blanks sep) (apart : sep ≠ []) (name : DefName upper w rest t pl')
      (next : Line upper declared pl' (p + blanks.length + 3 + sep.length + w.length) rest ts) :
      Line upper declared pl p (blanks ++ (ascs "def" ++ (sep ++ (w ++ rest))))
        (⟨.kDEF, ascs "def", ⟨p + blanks.length, p + blanks.length + 3⟩⟩ ::
          ⟨t, w, ⟨p + blanks.length + 3 + sep.length, p + blanks.length + 3 + sep.length + w.length⟩⟩ :: ts)
  /-- an opening parenthesis directly after what it belongs to -/
  | paren {p rest ts} (next : Line upper declared .operand (p + 1) rest ts) :
      Line upper declared .operator p (asc '(' :: rest) (⟨.tLPAREN2, [asc '('], ⟨p, p + 1⟩⟩ :: ts)
  /-- a name -/
  | name {pl p blanks cps cp mark rest ts} (blank : Blanks blanks) (name : Name cps) (first : cps.head? = some cp) (not_end : Utf8.encodeAll cps ≠ ascs "__END__")
      (ends : Ends false mark rest) (label : ¬ Colon rest) (keyword : pl = .name ∨ ∀ k ∈ keywords, ascs k.1 ≠ Utf8.encodeAll cps ++ mark)
      (next : Line upper declared (afterName pl (decide (mark = []) && !upper cp && declared cps)) (p + blanks.length + (Utf8.encodeAll cps ++ mark).length) rest ts) :
      Line upper declared pl p (blanks ++ (Utf8.encodeAll cps ++ (mark ++ rest)))
        (⟨kind mark (upper cp), Utf8.encodeAll cps ++ mark, ⟨p + blanks.length, p + blanks.length + (Utf8.encodeAll cps ++ mark).length⟩⟩ :: ts)
  /-- a keyword -/
  | keyword {pl p blanks cps mark word t pl' rest ts} (blank : Blanks blanks) (name : Name cps) (ends : Ends false mark rest) (text : Utf8.encodeAll cps ++ mark = ascs word)
      (label : ¬ Colon rest) (kw : Keyword pl word t pl') (next : Line upper declared pl' (p + blanks.length + word.length) rest ts) :
      Line upper declared pl p (blanks ++ (Utf8.encodeAll cps ++ (mark ++ rest)))
        (⟨t, ascs word, ⟨p + blanks.length, p + blanks.length + word.length⟩⟩ :: ts)
  /-- a label after a name that may be a command -/
  | label {p blanks cps mark rest ts} (blank : Blanks blanks) (name : Name cps) (not_end : Utf8.encodeAll cps ≠ ascs "__END__") (ends : Ends false mark (asc ':' :: rest))
      (single : rest.head? ≠ some (asc ':')) (plain : Plain rest) (next : Line upper declared .operand (p + blanks.length + ((Utf8.encodeAll cps ++ mark).length + 1)) rest ts) :
      Line upper declared .argument p (blanks ++ (Utf8.encodeAll cps ++ (mark ++ asc ':' :: rest)))
        (⟨.tLABEL, Utf8.encodeAll cps ++ mark, ⟨p + blanks.length, p + blanks.length + ((Utf8.encodeAll cps ++ mark).length + 1)⟩⟩ :: ts)
  /-- a label after a comma, and after a parenthesis that follows directly -/
  | element {pl p blanks c t gap cps mark rest ts} (blank : Blanks blanks) (place : pl = .operator ∨ pl = .argument)
      (op : c = asc ',' ∧ t = .tCOMMA ∨ c = asc '(' ∧ t = .tLPAREN2 ∧ blanks = []) (skipped : Gap gap) (name : Name cps) (not_end : Utf8.encodeAll cps ≠ ascs "__END__")
      (ends : Ends false mark (asc ':' :: rest)) (single : rest.head? ≠ some (asc ':')) (plain : Plain rest)
      (next : Line upper declared .operand (p + blanks.length + 1 + gap.length + ((Utf8.encodeAll cps ++ mark).length + 1)) rest ts) :
      Line upper declared pl p (blanks ++ (c :: (gap ++ (Utf8.encodeAll cps ++ (mark ++ asc ':' :: rest)))))
        (⟨t, [c], ⟨p + blanks.length, p + blanks.length + 1⟩⟩ ::
          ⟨.tLABEL, Utf8.encodeAll cps ++ mark, ⟨p + blanks.length + 1 + gap.length, p + blanks.length + 1 + gap.length + ((Utf8.encodeAll cps ++ mark).length + 1)⟩⟩ :: ts)
  /-- `return`, `break`, `next`, `rescue`, `class` and what they apply to -/
  | jump {pl p blanks cps mark word t rest ts} (blank : Blanks blanks) (name : Name cps) (ends : Ends false mark rest) (text : Utf8.encodeAll cps ++ mark = ascs word)
      (label : ¬ Colon rest) (kw : Jump pl word t) (solid : Solid rest) (next : Line upper declared .operand (p + blanks.length + word.length) rest ts) :
      Line upper declared pl p (blanks ++ (Utf8.encodeAll cps ++ (mark ++ rest)))
        (⟨t, ascs word, ⟨p + blanks.length, p + blanks.length + word.length⟩⟩ :: ts)
  /-- these keywords at the end of a line -/
  | jumpEnd {pl p blanks cps word t sep com rest ts} (blank : Blanks blanks) (name : Name cps) (text : Utf8.encodeAll cps = ascs word) (kw : Jump pl word t)
      (mid : word ≠ "class") (spaced : Blanks sep) (comment : Trailer com) (begins : Begins rest)
      (next : Line upper declared .operand (p + blanks.length + word.length + (sep ++ com).length + 1) rest ts) :
      Line upper declared pl p (blanks ++ (Utf8.encodeAll cps ++ (sep ++ (com ++ 10 :: rest))))
        (⟨t, ascs word, ⟨p + blanks.length, p + blanks.length + word.length⟩⟩ ::
          ⟨.tNL, [10], ⟨p + blanks.length + word.length + (sep ++ com).length, p + blanks.length + word.length + (sep ++ com).length + 1⟩⟩ :: ts)
  /-- `return`, `break`, `next`, `rescue` without a value before a modifier -/
  | jumpIf {pl p blanks cps word t sep cps2 mark word2 t2 m st rest ts} (blank : Blanks blanks) (name : Name cps) (text : Utf8.encodeAll cps = ascs word) (kw : Jump pl word t)
      (mid : word ≠ "class") (spaced : Blanks sep) (apart : sep ≠ []) (name2 : Name cps2) (ends : Ends false mark rest) (text2 : Utf8.encodeAll cps2 ++ mark = ascs word2)
      (label : ¬ Colon rest) (kw2 : (word2, t2, m, st) ∈ keywords) (two : t2 ≠ m)
      (next : Line upper declared .operand (p + blanks.length + word.length + sep.length + word2.length) rest ts) :
      Line upper declared pl p (blanks ++ (Utf8.encodeAll cps ++ (sep ++ (Utf8.encodeAll cps2 ++ (mark ++ rest)))))
        (⟨t, ascs word, ⟨p + blanks.length, p + blanks.length + word.length⟩⟩ ::
          ⟨m, ascs word2, ⟨p + blanks.length + word.length + sep.length, p + blanks.length + word.length + sep.length + word2.length⟩⟩ :: ts)
  /-- the end of a line where an operand is expected is skipped -/
  | skip {pl p blanks com rest ts} (blank : Blanks blanks) (comment : Trailer com) (place : pl = .operand ∨ pl = .name)
      (next : Line upper declared pl (p + (blanks ++ com).length + 1) rest ts) :
      Line upper declared pl p (blanks ++ (com ++ 10 :: rest)) ts
  /-- the end of a line -/
  | newline {pl p blanks com rest ts} (blank : Blanks blanks) (comment : Trailer com) (place : pl = .operator ∨ pl = .argument) (begins : Begins rest)
      (next : Line upper declared .operand (p + (blanks ++ com).length + 1) rest ts) :
      Line upper declared pl p (blanks ++ (com ++ 10 :: rest)) (⟨.tNL, [10], ⟨p + (blanks ++ com).length, p + (blanks ++ com).length + 1⟩⟩ :: ts)
  /-- the end of the last line -/
  | last {pl p blanks com} (blank : Blanks blanks) (comment : Trailer com) (place : pl = .operator ∨ pl = .argument) :
      Line upper declared pl p (blanks ++ (com ++ [10])) [⟨.tNL, [10], ⟨p + (blanks ++ com).length, p + (blanks ++ com).length + 1⟩⟩]
  /-- the end of a line before a line with a comment only is skipped -/
  | remark {pl p blanks com indent rest ts} (blank : Blanks blanks) (comment : Trailer com) (indented : Blanks indent) (place : pl = .operator ∨ pl = .argument)
      (next : Line upper declared pl (p + (blanks ++ (com ++ 10 :: indent)).length) (asc '#' :: rest) ts) :
      Line upper declared pl p (blanks ++ (com ++ 10 :: (indent ++ asc '#' :: rest))) ts
  /-- the call of a method at the start of the next line -/
  | call {pl p blanks com indent op t pl' rest ts} (blank : Blanks blanks) (comment : Trailer com) (indented : Blanks indent) (place : pl = .operator ∨ pl = .argument)
      (mem : (op, t, pl') ∈ infixes) (dot : op = "." ∨ op = "&.") (longest : Longest op rest) (number : op = "." → ∀ c, rest.head? = some c → ¬ Digit c)
      (next : Line upper declared pl' (p + (blanks ++ (com ++ 10 :: indent)).length + op.length) rest ts) :
      Line upper declared pl p (blanks ++ (com ++ 10 :: (indent ++ (ascs op ++ rest))))
        (⟨t, ascs op, ⟨p + (blanks ++ (com ++ 10 :: indent)).length, p + (blanks ++ (com ++ 10 :: indent)).length + op.length⟩⟩ :: ts)

end Verif.LineSpec
