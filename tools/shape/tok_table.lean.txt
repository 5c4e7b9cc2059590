import Verif.Lemmas.CalmBuild2
import Verif.Lemmas.ShapeTable
/-!
What is known of the tokens in the values of all nonterminals, and that the productions keep to it.
-/
namespace Verif
open Builder Grammar

/-- What is known of a token. -/
structure TFl where
  text : Bool
  name : Bool
  ref : Bool
  label : Bool
  quote : Bool
  opts : Bool
  deriving DecidableEq

namespace TFl
/-- everything -/
def all : TFl := ⟨true, true, true, true, true, true⟩
/-- nothing -/
def no : TFl := ⟨false, false, false, false, false, false⟩
def word : TFl := { no with text := true }
def named : TFl := { no with name := true }
def ident : TFl := { word with name := true }
def colon : TFl := { no with label := true }
def labelled : TFl := { word with label := true }
def key : TFl := { ident with label := true }
def «end» : TFl := { no with quote := true }
def dollar : TFl := { word with ref := true }
def slash : TFl := { word with opts := true }

/-- The token is so. -/
structure Holds (m : TFl) (t : Token) : Prop where
  text : m.text = true → IsText t
  name : m.name = true → t.tokenValue ≠ []
  ref : m.ref = true → ∃ c rest, t.tokenValue = c :: rest ∧ c < 128
  label : m.label = true → 1 ≤ t.loc.stop ∧ t.loc.stop < 2 ^ 31
  quote : m.quote = true → 2 ≤ t.loc.stop
  opts : m.opts = true → t.loc.begin < t.loc.stop ∧ t.loc.stop < 2 ^ 31

/-- Implication. -/
def le (a b : TFl) : Bool :=
  (a.text || !b.text) && (a.name || !b.name) && (a.ref || !b.ref) && (a.label || !b.label) && (a.quote || !b.quote) &&
  (a.opts || !b.opts)

theorem Holds.le {a b : TFl} {t : Token} (h : a.Holds t) (hl : a.le b = true) : b.Holds t := by
  obtain ⟨b1, b2, b3, b4, b5, b6⟩ := b
  simp only [TFl.le, Bool.and_eq_true, Bool.or_eq_true, Bool.not_eq_true'] at hl
  obtain ⟨⟨⟨⟨⟨l1, l2⟩, l3⟩, l4⟩, l5⟩, l6⟩ := hl
  have w : ∀ {x y : Bool}, x = true ∨ y = false → y = true → x = true := by
    intro x y h e
    rcases h with h | h
    · exact h
    · rw [e] at h; cases h
  exact ⟨fun e => h.text (w l1 e), fun e => h.name (w l2 e), fun e => h.ref (w l3 e), fun e => h.label (w l4 e),
    fun e => h.quote (w l5 e), fun e => h.opts (w l6 e)⟩

/-- What the type of a token says. -/
def ofTok (t : Tok) : TFl :=
  ⟨t.isWord, t == .tIDENTIFIER || t == .tLABEL, t == .tNTH_REF, t == .tLABEL, t == .tLABEL_END, t == .tREGEXP_END⟩

theorem ofTok_holds {t : Token} (h : WellRead t) : (ofTok t.tokenType).Holds t :=
  ⟨h.word, fun e => h.name (by simpa [ofTok] using e), fun e => h.nthRef (by simpa [ofTok] using e),
    fun e => h.label (by simpa [ofTok] using e), fun e => h.labelEnd (by simpa [ofTok] using e),
    fun e => h.regexpEnd (by simpa [ofTok] using e)⟩
end TFl

/-- What is known of the tokens in a component of a semantic value. -/
inductive TAbs where
  | tok (m : TFl)
  | otok (m : TFl)
  /-- of the label, or of the end of a quoted label -/
  | label (m e : TFl)
  | other
  /-- there is none -/
  | never
  deriving DecidableEq

/-- The label is so. -/
def LabelHas (m e : TFl) : PKwLabel → Prop
  | .PlainLabel t => m.Holds t
  | .QuotedLabel _ _ t => e.Holds t

/-- The value is as described. -/
def TAbs.Has : TAbs → Atom → Prop
  | .tok m, .tok t => m.Holds t
  | .otok m, .otok o => ∀ t, o = some t → m.Holds t
  | .label m e, .label k => LabelHas m e k
  | .other, _ => True
  | _, _ => False
/-- The same for lists. -/
def THasL : List TAbs → List Atom → Prop
  | [], [] => True
  | a :: as, x :: xs => a.Has x ∧ THasL as xs
  | _, _ => False
/-- The same for the first values of a list. -/
def THasP : List TAbs → List Atom → Prop
  | [], _ => True
  | a :: as, x :: xs => a.Has x ∧ THasP as xs
  | _ :: _, [] => False

/-- Implication. -/
def TAbs.le : TAbs → TAbs → Bool
  | .never, _ => true
  | _, .other => true
  | .tok a, .tok b => a.le b
  | .otok a, .otok b => a.le b
  | .label a b, .label c d => a.le c && b.le d
  | _, _ => false
/-- The same for lists. -/
def TAbs.leL : List TAbs → List TAbs → Bool
  | [], [] => true
  | a :: as, b :: bs => a.le b && leL as bs
  | _, _ => false
/-- The same for the first of a list. -/
def TAbs.leP : List TAbs → List TAbs → Bool
  | _, [] => true
  | a :: as, b :: bs => a.le b && leP as bs
  | [], _ :: _ => false

theorem THasL.cons {a : TAbs} {as : List TAbs} {xs : List Atom} (h : THasL (a :: as) xs) : ∃ y ys, xs = y :: ys ∧ a.Has y ∧ THasL as ys := by
  cases xs with
  | nil => exact absurd h id
  | cons y ys => exact ⟨y, ys, rfl, h⟩
theorem tok_has {m : TFl} {x : Atom} (h : (TAbs.tok m).Has x) : ∃ t, x = .tok t ∧ m.Holds t := by
  cases x <;> first | exact ⟨_, rfl, h⟩ | exact absurd h id
theorem otok_has {m : TFl} {x : Atom} (h : (TAbs.otok m).Has x) : ∃ t, x = .otok t ∧ ∀ t', t = some t' → m.Holds t' := by
  cases x <;> first | exact ⟨_, rfl, h⟩ | exact absurd h id
theorem label_has {m e : TFl} {x : Atom} (h : (TAbs.label m e).Has x) : ∃ k, x = .label k ∧ LabelHas m e k := by
  cases x <;> first | exact ⟨_, rfl, h⟩ | exact absurd h id
theorem tnever_has {x : Atom} : ¬ TAbs.never.Has x := by cases x <;> exact id

theorem TAbs.Has.le {a b : TAbs} {x : Atom} (h : a.Has x) (hl : a.le b = true) : b.Has x := by
  unfold TAbs.le at hl
  split at hl
  · exact absurd h tnever_has
  · cases x <;> trivial
  · obtain ⟨t, rfl, h⟩ := tok_has h; exact TFl.Holds.le h hl
  · obtain ⟨t, rfl, h⟩ := otok_has h; exact fun t' e => TFl.Holds.le (h t' e) hl
  · obtain ⟨k, rfl, h⟩ := label_has h
    rw [Bool.and_eq_true] at hl
    cases k with
    | PlainLabel => exact TFl.Holds.le h hl.1
    | QuotedLabel => exact TFl.Holds.le h hl.2
  · cases hl
theorem THasL.le {as bs : List TAbs} {xs : List Atom} (h : THasL as xs) (hl : TAbs.leL as bs = true) : THasL bs xs := by
  induction as generalizing bs xs with
  | nil =>
    cases bs with
    | nil => exact h
    | cons => cases hl
  | cons a as ih =>
    cases bs with
    | nil => cases hl
    | cons b bs =>
      obtain ⟨y, ys, rfl, h1, h2⟩ := h.cons
      rw [TAbs.leL, Bool.and_eq_true] at hl
      exact ⟨h1.le hl.1, ih h2 hl.2⟩
theorem THasL.leP {as bs : List TAbs} {xs : List Atom} (h : THasL as xs) (hl : TAbs.leP as bs = true) : THasP bs xs := by
  induction as generalizing bs xs with
  | nil =>
    cases bs with
    | nil => trivial
    | cons => cases hl
  | cons a as ih =>
    cases bs with
    | nil => trivial
    | cons b bs =>
      obtain ⟨y, ys, rfl, h1, h2⟩ := h.cons
      rw [TAbs.leP, Bool.and_eq_true] at hl
      exact ⟨h1.le hl.1, ih h2 hl.2⟩

/-- What the functions called in actions rely on. -/
def Grammar.BFn.needs : BFn → List TAbs
@@NEEDS@@

/-- What the result has, when the arguments have what is relied on. -/
def Grammar.BFn.tgives (f : BFn) (as : List TAbs) : Option TAbs :=
  if TAbs.leP as f.needs then
    match f, as with
    | .someT, [.tok m] => some (.otok m)
    | .noneT, [] => some (.otok .all)
    | .endlessName, [.tok m] => some (.tok m)
    | .kwargName, [.tok m] => some (.tok m)
    | .plainLabel, [.tok m] => some (.label m .all)
    | .quotedLabel, [_, _, .tok m] => some (.label .all m)
    | _, _ => some .other
  else none

theorem tgives_needs {f : BFn} {as : List TAbs} {b : TAbs} {xs : List Atom} (h : f.tgives as = some b) (hx : THasL as xs) :
    THasP f.needs xs := by
  unfold BFn.tgives at h
  split at h
  · exact hx.leP (by assumption)
  · cases h

theorem BldR.run_bind_ok {α β : Type} {m : BldR α} {f : α → BldR β} {s s' : BState} {b : β} (h : (m >>= f).run s = .ok (.ok b, s')) :
    ∃ a s1, m.run s = .ok (.ok a, s1) ∧ (f a).run s1 = .ok (.ok b, s') := by
  rw [show (m >>= f).run s = (m.run s >>= fun p => match p.1 with
    | .ok a => (f a).run p.2
    | .error e => pure (.error e, p.2)) from by
      show (ExceptT.bind m f) s = _
      unfold ExceptT.bind ExceptT.mk ExceptT.bindCont
      show (m.run s >>= fun p => _) = _
      congr; funext p; rcases p with ⟨p, s⟩; cases p <;> rfl] at h
  rcases hm : m.run s with e | ⟨r, s1⟩
  · rw [hm] at h; cases h
  · rw [hm] at h
    cases r with
    | error e => cases h
    | ok a => exact ⟨a, s1, rfl, h⟩

theorem endlessName_ok {t u : Token} {s s' : BState} (h : (endlessName t).run s = .ok (.ok u, s')) : u = t := by
  unfold endlessName at h
  dsimp only at h
  split at h
  · cases h; rfl
  · split at h
    · cases h
    · cases h; rfl
theorem kwargName_ok {ext : BldExt} {t u : Token} {s s' : BState} (h : (kwargName ext t).run s = .ok (.ok u, s')) : u = t := by
  unfold kwargName at h
  split at h
  · cases h
  · split at h
    · cases h; rfl
    · cases h

theorem fn_tok {ext : BldExt} {indent : Int} {f : BFn} {as : List TAbs} {b : TAbs} {xs : List Atom} {x : Atom} {s s' : BState}
    (h : f.tgives as = some b) (hx : THasL as xs) (hr : (applyFn ext indent f xs).run s = .ok (.ok x, s')) : b.Has x := by
  unfold BFn.tgives at h
  split at h
  · split at h
    · obtain ⟨y, ys, rfl, h1, h2⟩ := hx.cons
      obtain ⟨t, rfl, h1⟩ := tok_has h1
      cases ys with
      | cons => exact absurd h2 id
      | nil => cases h; cases hr; exact fun t' e => by cases e; exact h1
    · cases xs with
      | cons => exact absurd hx id
      | nil => cases h; cases hr; exact fun t' e => by cases e
    · obtain ⟨y, ys, rfl, h1, h2⟩ := hx.cons
      obtain ⟨t, rfl, h1⟩ := tok_has h1
      cases ys with
      | cons => exact absurd h2 id
      | nil =>
        cases h
        obtain ⟨a, s1, g1, g2⟩ := BldR.run_bind_ok (m := endlessName t) (f := fun a => pure (Atom.tok a)) hr
        cases g2
        rw [endlessName_ok g1]; exact h1
    · obtain ⟨y, ys, rfl, h1, h2⟩ := hx.cons
      obtain ⟨t, rfl, h1⟩ := tok_has h1
      cases ys with
      | cons => exact absurd h2 id
      | nil =>
        cases h
        obtain ⟨a, s1, g1, g2⟩ := BldR.run_bind_ok (m := kwargName ext t) (f := fun a => pure (Atom.tok a)) hr
        cases g2
        rw [kwargName_ok g1]; exact h1
    · obtain ⟨y, ys, rfl, h1, h2⟩ := hx.cons
      obtain ⟨t, rfl, h1⟩ := tok_has h1
      cases ys with
      | cons => exact absurd h2 id
      | nil => cases h; cases hr; exact h1
    · obtain ⟨y, ys, rfl, h1, h2⟩ := hx.cons
      obtain ⟨z, zs, rfl, h3, h4⟩ := h2.cons
      obtain ⟨w, ws, rfl, h5, h6⟩ := h4.cons
      obtain ⟨t, rfl, h5⟩ := tok_has h5
      cases ws with
      | cons => exact absurd h6 id
      | nil =>
        cases h
        cases y <;> try cases hr
        cases z <;> try cases hr
        exact h5
    · cases h; cases x <;> trivial
  · cases h

/-- The components of the values of the nonterminals. -/
def ntTok : List (List TAbs) := [
@@TABLE@@]

/-- The components of the value of a symbol. -/
def symTok : Sym → List TAbs
  | .t t => [.tok (.ofTok t)]
  | .n x => (ntTok[x]?).getD [.never]

/-- The components of `$1, $2, …`. -/
def slotTok : List Item → List (List TAbs)
  | [] => []
  | .a _ :: is => [] :: slotTok is
  | .t t :: is => symTok (.t t) :: slotTok is
  | .n x :: is => symTok (.n x) :: slotTok is
  | .err :: is => [.never] :: slotTok is

mutual
/-- The result of an expression. -/
def tokEx (tss : List (List TAbs)) : Ex → Option TAbs
  | .fld n i => (tss[n - 1]?).bind (·[i]?)
  | .call f es => (tokExs tss es).bind f.tgives
/-- The same for a list. -/
def tokExs (tss : List (List TAbs)) : List Ex → Option (List TAbs)
  | [] => some []
  | e :: es => (tokEx tss e).bind fun a => (tokExs tss es).map (a :: ·)
end
/-- The components of `$$`. -/
def tokOut (tss : List (List TAbs)) : ValOut → Option (List TAbs)
  | .copy n => tss[n - 1]?
  | .mk es => tokExs tss es

/-- Values of the given components give `$$` with the given components. -/
def tokFits (tss : List (List TAbs)) (o : ValOut) (as : List TAbs) : Bool :=
  tss.any (·.contains .never) || (match tokOut tss o with
    | some bs => TAbs.leL bs as
    | none => false)

theorem rules_tok : (rules.zip outs).all (fun p => p.1.rhs.any Item.refuses ||
    tokFits (slotTok p.1.rhs) p.2.2 (symTok (.n p.1.lhs))) = true := by decide +kernel

/-- Values with components as described. -/
def THasLL : List (List TAbs) → List (List Atom) → Prop
  | [], [] => True
  | t :: ts, x :: xs => THasL t x ∧ THasLL ts xs
  | _, _ => False

theorem THasL.get {as : List TAbs} {xs : List Atom} (h : THasL as xs) {i : Nat} {a : TAbs} {x : Atom} (h1 : as[i]? = some a)
    (h2 : xs[i]? = some x) : a.Has x := by
  induction as generalizing xs i with
  | nil => cases h1
  | cons b bs ih =>
    obtain ⟨y, ys, rfl, g1, g2⟩ := h.cons
    cases i with
    | zero => cases h1; cases h2; exact g1
    | succ i => exact ih g2 h1 h2
theorem THasLL.get {ts : List (List TAbs)} {vs : List (List Atom)} (h : THasLL ts vs) {i : Nat} {as : List TAbs} {xs : List Atom}
    (h1 : ts[i]? = some as) (h2 : vs[i]? = some xs) : THasL as xs := by
  induction ts generalizing vs i with
  | nil => cases h1
  | cons b bs ih =>
    cases vs with
    | nil => exact absurd h id
    | cons v vs =>
      cases i with
      | zero => cases h1; cases h2; exact h.1
      | succ i => exact ih h.2 h1 h2
theorem THasL.noNever {as : List TAbs} {xs : List Atom} (h : THasL as xs) : as.contains .never = false := by
  induction as generalizing xs with
  | nil => rfl
  | cons b bs ih =>
    obtain ⟨y, ys, rfl, g1, g2⟩ := h.cons
    rw [List.contains_cons, ih g2, Bool.or_false, beq_eq_false_iff_ne]
    rintro rfl
    exact tnever_has g1
theorem THasLL.noNever {ts : List (List TAbs)} {vs : List (List Atom)} (h : THasLL ts vs) : ts.any (·.contains .never) = false := by
  induction ts generalizing vs with
  | nil => rfl
  | cons b bs ih =>
    cases vs with
    | nil => exact absurd h id
    | cons v vs => rw [List.any_cons, h.1.noNever, ih h.2]; rfl

mutual
theorem tokEx_sound {ext : BldExt} {tss : List (List TAbs)} {vals : List (List Atom)} (hv : THasLL tss vals) :
    ∀ (e : Ex) {a : TAbs} {x : Atom}, tokEx tss e = some a → e.Gives ext vals x → a.Has x
  | .fld n i, a, x, h, hg => by
    rw [tokEx] at h
    rw [Ex.Gives] at hg
    obtain ⟨as, h1, h2⟩ := Option.bind_eq_some_iff.1 h
    obtain ⟨xs, g1, g2⟩ := Option.bind_eq_some_iff.1 hg
    exact (hv.get h1 g1).get h2 g2
  | .call f es, a, x, h, hg => by
    rw [tokEx] at h
    rw [Ex.Gives] at hg
    obtain ⟨as, h1, h2⟩ := Option.bind_eq_some_iff.1 h
    obtain ⟨xs, g1, indent, s, s', g2⟩ := hg
    exact fn_tok h2 (tokExs_sound hv es h1 g1) g2
theorem tokExs_sound {ext : BldExt} {tss : List (List TAbs)} {vals : List (List Atom)} (hv : THasLL tss vals) :
    ∀ (es : List Ex) {as : List TAbs} {xs : List Atom}, tokExs tss es = some as → exGives ext vals es xs → THasL as xs
  | [], as, xs, h, hg => by
    rw [tokExs] at h
    rw [exGives] at hg
    cases h
    subst hg
    trivial
  | e :: es, as, xs, h, hg => by
    rw [tokExs] at h
    rw [exGives] at hg
    obtain ⟨a, h1, h2⟩ := Option.bind_eq_some_iff.1 h
    obtain ⟨bs, h3, rfl⟩ := Option.map_eq_some_iff.1 h2
    obtain ⟨y, ys, rfl, g1, g2⟩ := hg
    exact ⟨tokEx_sound hv e h1 g1, tokExs_sound hv es h3 g2⟩
end

theorem tokFits_out {tss : List (List TAbs)} {vals : List (List Atom)} (hv : THasLL tss vals) {o : ValOut} {as : List TAbs}
    (h : tokFits tss o as = true) : ∃ bs, tokOut tss o = some bs ∧ TAbs.leL bs as = true := by
  rw [tokFits, hv.noNever, Bool.false_or] at h
  split at h
  · exact ⟨_, by assumption, h⟩
  · cases h
theorem tokFits_sound {ext : BldExt} {tss : List (List TAbs)} {vals : List (List Atom)} (hv : THasLL tss vals) {o : ValOut}
    {as : List TAbs} {xs : List Atom} (h : tokFits tss o as = true) (hg : o.Gives ext vals xs) : THasL as xs := by
  obtain ⟨bs, h1, h2⟩ := tokFits_out hv h
  refine THasL.le ?_ h2
  cases o with
  | copy n => exact hv.get h1 hg
  | mk es => exact tokExs_sound hv es h1 hg

mutual
/-- Every call made has what the function relies on. -/
theorem tokEx_calls {ext : BldExt} {tss : List (List TAbs)} {vals : List (List Atom)} (hv : THasLL tss vals) :
    ∀ (e : Ex) {a : TAbs} {f : BFn} {xs : List Atom}, tokEx tss e = some a → e.Calls ext vals f xs → THasP f.needs xs
  | .fld n i, a, f, xs, h, hg => by
    rw [Ex.Calls] at hg
    exact hg.elim
  | .call g es, a, f, xs, h, hg => by
    rw [tokEx] at h
    rw [Ex.Calls] at hg
    obtain ⟨as, h1, h2⟩ := Option.bind_eq_some_iff.1 h
    rcases hg with ⟨rfl, g1⟩ | g1
    · exact tgives_needs h2 (tokExs_sound hv es h1 g1)
    · exact tokExs_calls hv es h1 g1
theorem tokExs_calls {ext : BldExt} {tss : List (List TAbs)} {vals : List (List Atom)} (hv : THasLL tss vals) :
    ∀ (es : List Ex) {as : List TAbs} {f : BFn} {xs : List Atom}, tokExs tss es = some as → exCalls ext vals es f xs →
      THasP f.needs xs
  | [], as, f, xs, h, hg => by
    rw [exCalls] at hg
    exact hg.elim
  | e :: es, as, f, xs, h, hg => by
    rw [tokExs] at h
    rw [exCalls] at hg
    obtain ⟨a, h1, h2⟩ := Option.bind_eq_some_iff.1 h
    obtain ⟨bs, h3, rfl⟩ := Option.map_eq_some_iff.1 h2
    rcases hg with g1 | g1
    · exact tokEx_calls hv e h1 g1
    · exact tokExs_calls hv es h3 g1
end

theorem tokFits_calls {ext : BldExt} {tss : List (List TAbs)} {vals : List (List Atom)} (hv : THasLL tss vals) {o : ValOut}
    {as : List TAbs} {f : BFn} {xs : List Atom} (h : tokFits tss o as = true) (hg : o.Calls ext vals f xs) : THasP f.needs xs := by
  obtain ⟨bs, h1, h2⟩ := tokFits_out hv h
  cases o with
  | copy n => exact absurd hg id
  | mk es => exact tokExs_calls hv es h1 hg

theorem thasLL_slots {rhs : List Item} {ss : List Sym} {vss : List (List Atom)} (hs : syms rhs = some ss)
    (h : THasLL (ss.map symTok) vss) : THasLL (slotTok rhs) (slots rhs vss) := by
  induction rhs generalizing ss vss with
  | nil => trivial
  | cons i is ih =>
    cases i with
    | a act => exact ⟨trivial, ih hs h⟩
    | err => cases hs
    | t tok =>
      rw [syms, Option.map_eq_some_iff] at hs
      obtain ⟨ss', h1, rfl⟩ := hs
      cases vss with
      | nil => exact absurd h id
      | cons v vs => exact ⟨h.1, ih h1 h.2⟩
    | n x =>
      rw [syms, Option.map_eq_some_iff] at hs
      obtain ⟨ss', h1, rfl⟩ := hs
      cases vss with
      | nil => exact absurd h id
      | cons v vs => exact ⟨h.1, ih h1 h.2⟩

/-- The root of the tree has the components described. -/
def rootTok : Option Sym → List TAbs
  | some s => symTok s
  | none => [.never]
theorem roots_tok (ss : List Sym) : (ss.map some).map rootTok = ss.map symTok := by
  rw [List.map_map]; rfl

theorem tfits_rule {r : Nat} {ρ : Rule} {o : Nat × ValOut} (h1 : rules[r]? = some ρ) (h2 : outs[r]? = some o)
    (h3 : ρ.rhs.all (fun i => !i.refuses) = true) : tokFits (slotTok ρ.rhs) o.2 (symTok (.n ρ.lhs)) = true := by
  have := List.all_eq_true.1 rules_tok _ (rule_mem h1 h2)
  dsimp only at this
  rwa [refuses_any h3, Bool.false_or] at this

mutual
/-- The values of a derivation over well read tokens. -/
theorem tree_tok {ext : BldExt} : ∀ (t : TTree), t.shape.wf = true → t.AllTok WellRead → ∀ vs, Evals ext t vs →
    THasL (rootTok t.shape.root) vs
  | .leaf t, _, ht, vs, he => by
    rw [Evals] at he
    rw [TTree.AllTok] at ht
    subst he
    exact ⟨TFl.ofTok_holds ht, trivial⟩
  | .node r kids, hw, ht, vs, he => by
    rw [Evals] at he
    rw [TTree.AllTok] at ht
    obtain ⟨ρ, o, h1, h2, h3, vss, h4, h5⟩ := he
    obtain ⟨ss, g1, g2, g3⟩ := wf_node hw h1
    have hk := treeL_tok kids g3 ht vss h4
    rw [g2, roots_tok] at hk
    rw [TTree.shape, Tree.root, h1]
    exact tokFits_sound (thasLL_slots g1 hk) (tfits_rule h1 h2 h3) h5
theorem treeL_tok {ext : BldExt} : ∀ (ts : List TTree), wfL (shapeL ts) = true → allTokL WellRead ts → ∀ vss, evalsL ext ts vss →
    THasLL ((rootsL (shapeL ts)).map rootTok) vss
  | [], _, _, vss, he => by
    rw [evalsL_nil he]; exact trivial
  | t :: ts, hw, ht, vss, he => by
    rw [shapeL] at hw
    rw [allTokL] at ht
    obtain ⟨v, vs, rfl, e1, e2⟩ := evalsL_cons he
    rw [shapeL, rootsL]
    exact ⟨tree_tok t (wfL_cons hw).1 ht.1 v e1, treeL_tok ts (wfL_cons hw).2 ht.2 vs e2⟩
end

mutual
/-- Every call made for a derivation over well read tokens has what the function relies on. -/
theorem tok_calls {ext : BldExt} {f : BFn} {xs : List Atom} : ∀ t : TTree, t.shape.wf = true → t.AllTok WellRead →
    t.Calls ext f xs → THasP f.needs xs
  | .leaf t, _, _, h => by rw [TTree.Calls] at h; exact h.elim
  | .node r kids, hw, ht, h => by
    rw [TTree.Calls] at h
    rw [TTree.AllTok] at ht
    rcases h with ⟨ρ, o, h1, h2, h3, vss, h4, h5⟩ | h
    · obtain ⟨ss, g1, g2, g3⟩ := wf_node hw h1
      have hk := treeL_tok kids g3 ht vss h4
      rw [g2, roots_tok] at hk
      exact tokFits_calls (thasLL_slots g1 hk) (tfits_rule h1 h2 h3) h5
    · refine tokL_calls kids ?_ ht h
      rw [TTree.shape, Tree.wf] at hw
      split at hw
      · cases hw
      · rw [Bool.and_eq_true] at hw; exact hw.2
theorem tokL_calls {ext : BldExt} {f : BFn} {xs : List Atom} : ∀ ts : List TTree, wfL (shapeL ts) = true → allTokL WellRead ts →
    callsL ext ts f xs → THasP f.needs xs
  | [], _, _, h => by rw [callsL] at h; exact h.elim
  | t :: ts, hw, ht, h => by
    rw [shapeL] at hw
    rw [allTokL] at ht
    rw [callsL] at h
    rcases h with h | h
    · exact tok_calls t (wfL_cons hw).1 ht.1 h
    · exact tokL_calls ts (wfL_cons hw).2 ht.2 h
end
end Verif
