import Verif.Model.Builder.Core
import Verif.Model.Builder.Build
import Verif.Spec.Builder
import Verif.Props.Source
/-!
C07 (collections) and C30–C40: the checks and rewritings of `src/builder.rs`.
-/
namespace Verif.Props
open Builder BuilderSpec

/-! ### C07 -/

theorem joinMaybeLocs_le (a b : Option Loc) (r : Loc) (h : joinMaybeLocs a b = some r) :
    (∀ x ∈ a, Within x r) ∧ (∀ x ∈ b, Within x r) ∧
    (∀ c, (∀ x ∈ a, Within x c) → (∀ x ∈ b, Within x c) → Within r c) := by
  cases a with
  | none => cases b with
    | none => simp [joinMaybeLocs] at h
    | some y => simp [joinMaybeLocs] at h; subst h; simp [Within]
  | some x => cases b with
    | none => simp [joinMaybeLocs] at h; subst h; simp [Within]
    | some y =>
      simp [joinMaybeLocs] at h; subst h
      have := C07_join_lub x y
      simpa using this

theorem joinMaybeLocs_none (a b : Option Loc) : joinMaybeLocs a b = none ↔ a = none ∧ b = none := by
  cases a <;> cases b <;> simp [joinMaybeLocs]

/-- **C07** the location of a list of nodes exists when there is a node and is the least range around the first and the last. -/
theorem C07_collection_expr (nodes : List Node) :
    (collectionExpr nodes = none ↔ nodes = []) ∧
    ∀ r, collectionExpr nodes = some r →
      (∀ n ∈ nodes.head?, Within n.expression r) ∧ (∀ n ∈ nodes.getLast?, Within n.expression r) ∧
      (∀ c, (∀ n ∈ nodes.head?, Within n.expression c) → (∀ n ∈ nodes.getLast?, Within n.expression c) → Within r c) := by
  constructor
  · simp only [collectionExpr, joinMaybeExprs, joinMaybeLocs_none, maybeExpr, Option.map_eq_none_iff, List.head?_eq_none_iff]
    simp +contextual
  · intro r h
    have := joinMaybeLocs_le _ _ _ h
    simpa [maybeExpr] using this

/-- **C07** the location computed for a collection is the least range around its delimiters and its first and last part; there
is always one unless delimiters and parts are all missing. -/
theorem C07_collection_map (b e : Option Token) (parts : List Node) :
    (collectionMap b parts e = .error .unreachable ↔ b = none ∧ e = none ∧ parts = []) ∧
    ∀ m, collectionMap b parts e = .ok m →
      m.beginL = b.map (·.loc) ∧ m.endL = e.map (·.loc) ∧
      (∀ t ∈ b, Within t.loc m.expressionL) ∧ (∀ t ∈ e, Within t.loc m.expressionL) ∧
      (∀ n ∈ parts.head?, Within n.expression m.expressionL) ∧ (∀ n ∈ parts.getLast?, Within n.expression m.expressionL) ∧
      (∀ c, (∀ t ∈ b, Within t.loc c) → (∀ t ∈ e, Within t.loc c) → (∀ n ∈ parts.head?, Within n.expression c) →
        (∀ n ∈ parts.getLast?, Within n.expression c) → Within m.expressionL c) := by
  simp only [collectionMap]
  cases h : joinMaybeLocs (joinMaybeLocs (collectionExpr parts) (maybeLoc b)) (maybeLoc e) with
  | none =>
    rw [joinMaybeLocs_none, joinMaybeLocs_none, (C07_collection_expr parts).1] at h
    simp only [maybeLoc, Option.map_eq_none_iff] at h
    simp [h]
  | some r =>
    constructor
    · constructor
      · intro h'; simp at h'
      · rintro ⟨rfl, rfl, rfl⟩
        simp [collectionExpr, joinMaybeExprs, maybeExpr, maybeLoc, joinMaybeLocs] at h
    · intro m hm
      simp only [Except.ok.injEq] at hm
      subst hm
      have h1 := joinMaybeLocs_le _ _ _ h
      refine ⟨rfl, rfl, ?_⟩
      have trans : ∀ {a b c : Loc}, Within a b → Within b c → Within a c := by
        intro a b c h h'; exact ⟨Nat.le_trans h'.1 h.1, Nat.le_trans h.2 h'.2⟩
      cases hi : joinMaybeLocs (collectionExpr parts) (maybeLoc b) with
      | none =>
        rw [joinMaybeLocs_none, (C07_collection_expr parts).1] at hi
        simp only [maybeLoc, Option.map_eq_none_iff] at hi
        simp only [hi.1, hi.2] at h1 ⊢
        simp [maybeLoc, collectionExpr, joinMaybeExprs, maybeExpr, joinMaybeLocs] at h1 ⊢
        exact ⟨h1.1, h1.2⟩
      | some i =>
        rw [hi] at h1
        have h2 := joinMaybeLocs_le _ _ _ hi
        simp only [maybeLoc, Option.mem_def, Option.map_eq_some_iff, forall_exists_index, and_imp,
          forall_apply_eq_imp_iff₂] at h1 h2 ⊢
        have hir := h1.1 i rfl
        refine ⟨fun t ht => trans (h2.2.1 t ht) hir, h1.2.1, ?_, ?_, ?_⟩
        · intro n hn
          cases hc : collectionExpr parts with
          | none => rw [(C07_collection_expr parts).1] at hc; subst hc; simp at hn
          | some c => exact trans (((C07_collection_expr parts).2 c hc).1 n hn) (trans (h2.1 c hc) hir)
        · intro n hn
          cases hc : collectionExpr parts with
          | none => rw [(C07_collection_expr parts).1] at hc; subst hc; simp at hn
          | some c => exact trans (((C07_collection_expr parts).2 c hc).2.1 n hn) (trans (h2.1 c hc) hir)
        · intro c hb he hf hl
          refine h1.2.2 c ?_ he
          rintro _ ⟨⟩
          refine h2.2.2 c ?_ hb
          intro q hq
          exact ((C07_collection_expr parts).2 q hq).2.2 c hf hl

/-- Non-vacuity: `[1, 2]` at 4..10. -/
example : collectionMap (some ⟨.tLBRACK, [91], ⟨4, 5⟩⟩) [.Int [49] none ⟨5, 6⟩, .Int [50] none ⟨8, 9⟩]
    (some ⟨.tRBRACK, [93], ⟨9, 10⟩⟩) = .ok ⟨some ⟨4, 5⟩, some ⟨9, 10⟩, ⟨4, 10⟩⟩ := rfl

/-! ### C30 -/

/-- What `dedent_string` removes is a run of blanks and tabs, and it leaves the rest as it is. -/
theorem dedentLoop_suffix (width col : Nat) (s : Bytes) :
    ∃ p, s = p ++ dedentLoop width col s ∧ ∀ c ∈ p, isIndent c := by
  induction s generalizing col with
  | nil => exact ⟨[], by simp [dedentLoop]⟩
  | cons c rest ih =>
    unfold dedentLoop
    split
    · exact ⟨[], by simp⟩
    · split
      · rename_i h
        obtain ⟨p, hp, hi⟩ := ih (col + 1)
        exact ⟨c :: p, by simp [← hp], by simp; exact ⟨.inl h, hi⟩⟩
      · split
        · rename_i h
          simp only
          split
          · exact ⟨[], by simp⟩
          · obtain ⟨p, hp, hi⟩ := ih (TAB_WIDTH * (col / TAB_WIDTH + 1))
            exact ⟨c :: p, by simp [← hp], by simp; exact ⟨.inr h, hi⟩⟩
        · exact ⟨[], by simp⟩

/-- **C30 is false as stated**: a tab is removed although it occupies more columns than the width (here 8 of 4) … -/
theorem C30_negation : ¬ (∀ (s : Bytes) (width : Nat), ∃ p, s = p ++ dedentString s width ∧ (∀ c ∈ p, isIndent c) ∧
    columnAfter 0 p ≤ width) := by
  intro h
  obtain ⟨p, hp, -, hc⟩ := h [asc '\t', asc 'x'] 4
  have hd : dedentString [asc '\t', asc 'x'] 4 = [asc 'x'] := by decide
  rw [hd] at hp
  have : p = [asc '\t'] := by
    have : p ++ [asc 'x'] = [asc '\t'] ++ [asc 'x'] := by simpa using hp.symm
    exact List.append_cancel_right this
  subst this
  revert hc; decide

/-- … and a second tab is kept although it lies inside the width. -/
theorem C30_negation_keeps : dedentString [asc '\t', asc '\t', asc 'x'] 16 = [asc '\t', asc 'x'] := by decide

/-- Columns advance. -/
theorem columnAfter_le (col : Nat) (p : Bytes) : col ≤ columnAfter col p := by
  induction p generalizing col with
  | nil => simp [columnAfter]
  | cons c rest ih =>
    simp only [columnAfter]
    refine Nat.le_trans ?_ (ih _)
    split <;> omega

/-- What the loop leaves does not start with something it could still remove. -/
theorem dedentLoop_width (width col : Nat) (s : Bytes) (hc : col ≤ width)
    (hw : (∀ c ∈ s, c ≠ asc '\t') ∨ width = 8) :
    ∃ p, s = p ++ dedentLoop width col s ∧ (∀ c ∈ p, isIndent c) ∧ columnAfter col p ≤ width ∧
      ∀ c rest, dedentLoop width col s = c :: rest → isIndent c → width < columnAfter col (p ++ [c]) := by
  induction s generalizing col with
  | nil => exact ⟨[], by simp [dedentLoop], by simp, by simpa [columnAfter] using hc, by simp [dedentLoop]⟩
  | cons c rest ih =>
    have hw' : (∀ c ∈ rest, c ≠ asc '\t') ∨ width = 8 := hw.imp (fun h c hc => h c (by simp [hc])) id
    unfold dedentLoop
    split
    · rename_i h
      refine ⟨[], by simp, by simp, by simpa [columnAfter] using hc, ?_⟩
      intro d r hd hi
      simp only [List.nil_append, columnAfter]
      have : col = width := by omega
      subst this
      split <;> omega
    · rename_i hlt
      split
      · rename_i h
        obtain ⟨p, hp, hi, hcol, hnext⟩ := ih (col + 1) (by omega) hw'
        have hne : c ≠ asc '\t' := by subst h; decide
        refine ⟨c :: p, by simp [← hp], by simp; exact ⟨.inl h, hi⟩, ?_, ?_⟩
        · simpa [columnAfter, hne] using hcol
        · intro d r hd hid
          simpa [columnAfter, hne] using hnext d r hd hid
      · rename_i hsp
        split
        · rename_i h
          have h8 : width = 8 := by
            cases hw with
            | inl hw => exact absurd h (hw c (by simp))
            | inr hw => exact hw
          subst h8
          have hc0 : col / 8 = 0 := by omega
          simp only [TAB_WIDTH, hc0]
          obtain ⟨p, hp, hi, hcol, hnext⟩ := ih (8 * (0 + 1)) (by omega) hw'
          simp only [show ¬ (8 * (0 + 1) > 8) by omega, if_false]
          refine ⟨c :: p, by simp [← hp], by simp; exact ⟨.inr h, hi⟩, ?_, ?_⟩
          · simpa [columnAfter, h, hc0] using hcol
          · intro d r hd hid
            simpa [columnAfter, h, hc0] using hnext d r hd hid
        · rename_i ht
          refine ⟨[], by simp, by simp, by simpa [columnAfter] using hc, ?_⟩
          intro d r hd hid
          simp only [List.cons.injEq] at hd
          obtain ⟨rfl, rfl⟩ := hd
          exact absurd hid (by simp [isIndent, hsp, ht])

/-- **C30 (partial)** whatever the width, `dedent_string` removes a run of blanks and tabs from the front and nothing else. When
the text has no tab or the width is 8, what it removes occupies at most `width` columns and could not be longer.
Missing: tabs with any other width, where the property fails (`C30_negation`, `C30_negation_keeps`). -/
theorem C30_dedent_partial (s : Bytes) (width : Nat) :
    (∃ p, s = p ++ dedentString s width ∧ ∀ c ∈ p, isIndent c) ∧
    ((∀ c ∈ s, c ≠ asc '\t') ∨ width = 8 →
      ∃ p, s = p ++ dedentString s width ∧ (∀ c ∈ p, isIndent c) ∧ columnAfter 0 p ≤ width ∧
        ∀ c rest, dedentString s width = c :: rest → isIndent c → width < columnAfter 0 (p ++ [c])) :=
  ⟨dedentLoop_suffix width 0 s, fun h => dedentLoop_width width 0 s (Nat.zero_le _) h⟩

/-- Non-vacuity: three of four blanks. -/
example : dedentString (ascs "    a b") 3 = ascs " a b" := by decide
example : dedentString (ascs "  \t b") 8 = ascs " b" := by decide

/-! ### C31 -/

/-- A string part. -/
def isStrNode : Node → Bool
  | .Str .. => true
  | _ => false

/-- A part a heredoc can have. -/
inductive HeredocPart : Node → Prop
  | str : HeredocPart (.Str v b e x)
  | begin : HeredocPart (.Begin s b e x)
  | gvar : HeredocPart (.Gvar n x)
  | backRef : HeredocPart (.BackRef n x)
  | nthRef : HeredocPart (.NthRef n x)
  | ivar : HeredocPart (.Ivar n x)
  | cvar : HeredocPart (.Cvar n x)

/-- `after` is `before` with the string parts dedented, the emptied ones dropped, and everything else as it was. -/
inductive DedentedParts (width : Nat) : List Node → List Node → Prop
  | nil : DedentedParts width [] []
  | keep : DedentedParts width before after → dedentString v width ≠ [] →
      DedentedParts width (.Str v b e x :: before) (.Str (dedentString v width) b e x :: after)
  | drop : DedentedParts width before after → dedentString v width = [] →
      DedentedParts width (.Str v b e x :: before) after
  | other : DedentedParts width before after → isStrNode n = false → DedentedParts width (n :: before) (n :: after)

theorem dedentHeredocParts_spec (width : Nat) (parts : List Node) (h : ∀ n ∈ parts, HeredocPart n) :
    ∃ parts', dedentHeredocParts width parts = .ok parts' ∧ DedentedParts width parts parts' := by
  induction parts with
  | nil => exact ⟨[], rfl, .nil⟩
  | cons n rest ih =>
    obtain ⟨r, hr, hd⟩ := ih (fun m hm => h m (by simp [hm]))
    cases h n (by simp) with
    | str =>
      rename_i v b e x
      refine ⟨if (dedentString v width).isEmpty then r else .Str (dedentString v width) b e x :: r, ?_, ?_⟩
      · simp [dedentHeredocParts, hr, bind, Except.bind, pure, Except.pure]
      · split
        · rename_i hv; exact .drop hd (by simpa using hv)
        · rename_i hv; exact .keep hd (by simpa using hv)
    | begin => exact ⟨_ :: r, by simp [dedentHeredocParts, hr, bind, Except.bind, pure, Except.pure], .other hd rfl⟩
    | gvar => exact ⟨_ :: r, by simp [dedentHeredocParts, hr, bind, Except.bind, pure, Except.pure], .other hd rfl⟩
    | backRef => exact ⟨_ :: r, by simp [dedentHeredocParts, hr, bind, Except.bind, pure, Except.pure], .other hd rfl⟩
    | nthRef => exact ⟨_ :: r, by simp [dedentHeredocParts, hr, bind, Except.bind, pure, Except.pure], .other hd rfl⟩
    | ivar => exact ⟨_ :: r, by simp [dedentHeredocParts, hr, bind, Except.bind, pure, Except.pure], .other hd rfl⟩
    | cvar => exact ⟨_ :: r, by simp [dedentHeredocParts, hr, bind, Except.bind, pure, Except.pure], .other hd rfl⟩

theorem DedentedParts.interpolation {width : Nat} {before after : List Node} (h : DedentedParts width before after) :
    after.filter (fun n => !isStrNode n) = before.filter (fun n => !isStrNode n) := by
  induction h with
  | nil => rfl
  | keep _ _ ih => simpa [isStrNode] using ih
  | drop _ _ ih => simpa [isStrNode] using ih
  | other _ hn ih => simp [hn, ih]

/-- **C31** dedenting a heredoc: level 0 changes nothing; for a positive level the result is the same kind of heredoc with the
same locations, whose parts are the old ones with string parts dedented, emptied ones dropped and the interpolated parts kept, in
order and unchanged. It does not panic on the parts a heredoc can have. -/
theorem C31_heredoc_dedent (parts : List Node) (b e x : Loc) (level : Int) (h : ∀ n ∈ parts, HeredocPart n) :
    (level = 0 → ∀ node, heredocDedent node level = .ok node) ∧
    (0 < level → ∃ parts', heredocDedent (.Heredoc parts b e x) level = .ok (.Heredoc parts' b e x) ∧
      heredocDedent (.XHeredoc parts b e x) level = .ok (.XHeredoc parts' b e x) ∧
      DedentedParts level.toNat parts parts' ∧
      parts'.filter (fun n => !isStrNode n) = parts.filter (fun n => !isStrNode n)) := by
  constructor
  · intro h0 node; simp [heredocDedent, h0]
  · intro hp
    obtain ⟨p', hp', hd⟩ := dedentHeredocParts_spec level.toNat parts h
    refine ⟨p', ?_, ?_, hd, hd.interpolation⟩ <;>
      simp [heredocDedent, show ¬ level = 0 by omega, show ¬ level < 0 by omega, hp', bind, Except.bind, pure, Except.pure]

/-- Non-vacuity: two string parts around an interpolation; the second consists of indentation only. -/
example : heredocDedent (.Heredoc [.Str (ascs "  a") none none ⟨4, 7⟩, .Ivar [64, 97] ⟨8, 10⟩, .Str (ascs "  ") none none ⟨11, 13⟩]
    ⟨4, 13⟩ ⟨13, 14⟩ ⟨0, 3⟩) 2 =
    .ok (.Heredoc [.Str (ascs "a") none none ⟨4, 7⟩, .Ivar [64, 97] ⟨8, 10⟩] ⟨4, 13⟩ ⟨13, 14⟩ ⟨0, 3⟩) := rfl

/-- Anything but a heredoc is refused by a panic. -/
example : heredocDedent (.Str [] none none ⟨0, 0⟩) 2 = .error .unreachable := rfl

/-! ### C32 -/

/-- A run of the builder. -/
abbrev runM (m : BldM α) (s : BState) : Except Panic (α × BState) := m s
/-- A run of the builder with a result. -/
abbrev runR (m : BldR α) (s : BState) : Except Panic (Except Unit α × BState) := m.run s

/-- Reports appended to the diagnostics. -/
def withErrors (s : BState) (msg : BldMsg) (locs : List Loc) : BState :=
  { s with diagnostics := s.diagnostics ++ locs.map fun l => ⟨.error, msg, l⟩ }

theorem withErrors_nil (s : BState) (msg : BldMsg) : withErrors s msg [] = s := by simp [withErrors]
theorem withErrors_append (s : BState) (msg : BldMsg) (a b : List Loc) :
    withErrors (withErrors s msg a) msg b = withErrors s msg (a ++ b) := by simp [withErrors, List.append_assoc]

/-- A name that can be repeated without panic: it starts with an ASCII character. -/
def asciiStart (name : Text) : Prop := ∃ c rest, name = c :: rest ∧ c < 0x80

/-- The map holds exactly the names seen, each with a parameter of that name. -/
def MapOk (map : ArgMap) (seen : List Text) : Prop :=
  (∀ name, (map.lookup name).isSome ↔ name ∈ seen) ∧
  ∀ name n, map.lookup name = some n → argName n = .ok (some name)

theorem argName_paramOf {n : Node} {name : Text} (h : argName n = .ok (some name)) :
    ∃ l, paramOf n = some (name, l) ∧ argNameLoc n = .ok l := by
  cases n <;> simp_all [argName, paramOf, argNameLoc]

theorem paramOf_argName {n : Node} (h : ∃ o, argName n = .ok o) (hp : paramOf n = none) : argName n = .ok none := by
  cases n <;> simp_all [argName, paramOf]

/-- The names that panic: repeated and not starting with an ASCII character. -/
def panicsAt (seen : List Text) : List (Text × Loc) → Prop
  | [] => False
  | (name, _) :: rest => (name ∈ seen ∧ ¬ asciiStart name) ∨ panicsAt (name :: seen) rest

theorem firstByteStr_ok {name : Text} (h : asciiStart name) : ∃ c, name.head? = some c ∧ firstByteStr name = .ok [c] := by
  obtain ⟨c, rest, rfl, hc⟩ := h
  exact ⟨c, rfl, by simp [firstByteStr, hc]⟩

theorem firstByteStr_bad {name : Text} (h : ¬ asciiStart name) : firstByteStr name = .error .index := by
  cases name with
  | nil => rfl
  | cons c rest =>
    have : ¬ c < 0x80 := fun hc => h ⟨c, rest, rfl, hc⟩
    simp [firstByteStr, this]

theorem checkDuplicateArg_spec (n : Node) (hn : ∃ o, argName n = .ok o) (map : ArgMap) (seen : List Text) (hm : MapOk map seen)
    (s : BState) :
    (¬ panicsAt seen (paramOf n).toList → ∃ map', runM (checkDuplicateArg n map) s =
      .ok (map', withErrors s .DuplicatedArgumentName (repeated seen (paramOf n).toList)) ∧
      MapOk map' (((paramOf n).toList.map (·.1)) ++ seen)) ∧
    (panicsAt seen (paramOf n).toList → runM (checkDuplicateArg n map) s = .error .index) := by
  obtain ⟨o, ho⟩ := hn
  cases o with
  | none =>
    have hp : paramOf n = none := by
      cases n <;> simp_all [argName, paramOf]
    simp [hp, panicsAt, repeated, withErrors_nil, runM, checkDuplicateArg, ho, liftR, bind, StateT.bind, Except.bind, pure,
      StateT.pure, Except.pure, hm]
  | some name =>
    obtain ⟨l, hp, hl⟩ := argName_paramOf ho
    rw [hp]
    have hseen := hm.1 name
    cases hlk : map.lookup name with
    | none =>
      have hns : name ∉ seen := by rw [← hseen, hlk]; simp
      simp only [Option.toList, panicsAt, hns, false_and, or_self, not_false_eq_true, forall_const, repeated, if_false,
        withErrors_nil, List.map_cons, List.map_nil, List.singleton_append, false_imp_iff, and_true]
      refine ⟨(name, n) :: map, ?_, ?_, ?_⟩
      · simp [runM, checkDuplicateArg, ho, liftR, bind, StateT.bind, Except.bind, pure, StateT.pure, Except.pure, hlk]
      · intro nm
        simp only [List.lookup_cons, List.mem_cons]
        by_cases he : nm = name
        · subst he; simp
        · simp [he, hm.1 nm, show (nm == name) = false from by simpa using he]
      · intro nm k hk
        simp only [List.lookup_cons] at hk
        by_cases he : nm = name
        · subst he; simp at hk; subst hk; exact ho
        · rw [show (nm == name) = false from by simpa using he] at hk
          exact hm.2 nm k hk
    | some that =>
      have hs : name ∈ seen := by rw [← hseen, hlk]; simp
      have hthat := hm.2 name that hlk
      have hmap : MapOk map (name :: seen) := by
        refine ⟨fun nm => ?_, hm.2⟩
        rw [hm.1 nm]; simp only [List.mem_cons]
        constructor
        · exact .inr
        · rintro (rfl | h)
          · exact hs
          · exact h
      simp only [Option.toList, panicsAt, hs, true_and, or_false, repeated, List.map_cons, List.map_nil, List.singleton_append,
        Classical.not_not]
      constructor
      · intro ha
        obtain ⟨c, hc, hf⟩ := firstByteStr_ok ha
        refine ⟨map, ?_, hmap⟩
        by_cases hu : c = 95
        · subst hu
          simp [runM, checkDuplicateArg, ho, hthat, hl, liftR, bind, StateT.bind, Except.bind, pure, StateT.pure, Except.pure, hlk,
            argNameCollides, hf, hc, lit, withErrors_nil]
        · have hne : ¬ [c] = lit "_" := by
            intro h; apply hu; have : lit "_" = [95] := by decide
            rw [this] at h; simpa using h
          simp [runM, checkDuplicateArg, ho, hthat, hl, liftR, bind, StateT.bind, Except.bind, pure, StateT.pure, Except.pure, hlk,
            argNameCollides, hf, hc, hne, hu, withErrors, Builder.error]
      · intro ha
        simp [runM, checkDuplicateArg, ho, hthat, hl, liftR, bind, StateT.bind, Except.bind, pure, StateT.pure, Except.pure, hlk,
            argNameCollides, firstByteStr_bad ha]

theorem repeated_append (seen : List Text) (a b : List (Text × Loc)) :
    repeated seen (a ++ b) = repeated seen a ++ repeated ((a.map (·.1)).reverse ++ seen) b := by
  induction a generalizing seen with
  | nil => simp [repeated]
  | cons p rest ih =>
    obtain ⟨name, l⟩ := p
    simp only [List.cons_append, repeated, ih]
    split <;> simp

theorem panicsAt_append (seen : List Text) (a b : List (Text × Loc)) :
    panicsAt seen (a ++ b) ↔ panicsAt seen a ∨ panicsAt ((a.map (·.1)).reverse ++ seen) b := by
  induction a generalizing seen with
  | nil => simp [panicsAt]
  | cons p rest ih =>
    obtain ⟨name, l⟩ := p
    simp only [List.cons_append, panicsAt, ih]
    simp [or_assoc]

theorem MapOk.perm {map : ArgMap} {a b : List Text} (h : MapOk map a) (hp : ∀ x, x ∈ a ↔ x ∈ b) : MapOk map b :=
  ⟨fun n => by rw [h.1 n, hp n], h.2⟩

/-- What a check of some entries does, in terms of their named parameters. -/
def ChecksDup (m : ArgMap → BldM ArgMap) (ps : List (Text × Loc)) : Prop :=
  ∀ map seen s, MapOk map seen →
    (¬ panicsAt seen ps → ∃ map', runM (m map) s = .ok (map', withErrors s .DuplicatedArgumentName (repeated seen ps)) ∧
      MapOk map' ((ps.map (·.1)).reverse ++ seen)) ∧
    (panicsAt seen ps → runM (m map) s = .error .index)

theorem checksDup_leaf (n : Node) (hn : ∃ o, argName n = .ok o) : ChecksDup (checkDuplicateArg n) (paramOf n).toList := by
  intro map seen s hm
  have := checkDuplicateArg_spec n hn map seen hm s
  refine ⟨fun h => ?_, this.2⟩
  obtain ⟨map', h1, h2⟩ := this.1 h
  refine ⟨map', h1, h2.perm ?_⟩
  intro x; simp

theorem checksDup_nil : ChecksDup (fun map => checkDuplicateArgs [] map) [] := by
  intro map seen s hm
  refine ⟨fun _ => ⟨map, ?_, by simpa using hm⟩, fun h => h.elim⟩
  simp [checkDuplicateArgs, repeated, withErrors_nil, runM, pure, StateT.pure, Except.pure]

theorem checksDup_bind {m k : ArgMap → BldM ArgMap} {a b : List (Text × Loc)} (hm : ChecksDup m a) (hk : ChecksDup k b) :
    ChecksDup (fun map => Bind.bind (m map) k) (a ++ b) := by
  intro map seen s hmap
  have h1 := hm map seen s hmap
  rw [panicsAt_append]
  constructor
  · intro hn
    simp only [not_or] at hn
    obtain ⟨map', hr, hm'⟩ := h1.1 hn.1
    obtain ⟨map'', hr', hm''⟩ := (hk map' _ (withErrors s .DuplicatedArgumentName (repeated seen a)) hm').1 hn.2
    refine ⟨map'', ?_, ?_⟩
    · simp only [runM, bind, StateT.bind, Except.bind] at *
      rw [hr]; simp only []
      rw [hr', withErrors_append, repeated_append]
    · simpa [List.append_assoc] using hm''
  · intro hp
    by_cases hp1 : panicsAt seen a
    · have := h1.2 hp1
      simp only [runM, bind, StateT.bind, Except.bind] at *
      rw [this]
    · obtain ⟨map', hr, hm'⟩ := h1.1 hp1
      have := (hk map' _ (withErrors s .DuplicatedArgumentName (repeated seen a)) hm').2 (hp.resolve_left hp1)
      simp only [runM, bind, StateT.bind, Except.bind] at *
      rw [hr]; simpa using this

theorem checksDup_list (ns : List Node) (h : ∀ n ∈ ns, ChecksDup (fun map => checkDuplicateArgsNode n map) (paramsOf n)) :
    ChecksDup (fun map => checkDuplicateArgs ns map) (paramsOfList ns) := by
  induction ns with
  | nil => simpa [paramsOfList] using checksDup_nil
  | cons n rest ih =>
    simpa [checkDuplicateArgs, paramsOfList] using
      checksDup_bind (h n (by simp)) (ih fun m hm => h m (by simp [hm]))

theorem checksDup_node {n : Node} (h : IsParam n) : ChecksDup (fun map => checkDuplicateArgsNode n map) (paramsOf n) := by
  induction h with
  | mlhs _ ih => simp only [checkDuplicateArgsNode, paramsOf]; exact checksDup_list _ ih
  | procarg0 _ ih => simp only [checkDuplicateArgsNode, paramsOf]; exact checksDup_list _ ih
  | forward => simpa [checkDuplicateArgsNode, paramsOf, paramOf, checkDuplicateArgs] using checksDup_nil
  | kwnil => simpa [checkDuplicateArgsNode, paramsOf, paramOf, checkDuplicateArgs] using checksDup_nil
  | _ => simp only [checkDuplicateArgsNode, paramsOf]; exact checksDup_leaf _ ⟨_, rfl⟩

/-- **C32 (partial)** for every parameter list, destructuring included: unless a name that does not start with an ASCII
character is repeated, the check reports exactly the repeated names that do not start with an underscore, each at the later
occurrence, in order, and nothing else changes. Otherwise it panics, which the property forbids: `C32_negation`.
Missing: the absence of panics. -/
theorem C32_duplicate_args_partial (ns : List Node) (h : ∀ n ∈ ns, IsParam n) (s : BState) :
    (¬ panicsAt [] (paramsOfList ns) → ∃ map, runM (checkDuplicateArgs ns []) s =
      .ok (map, withErrors s .DuplicatedArgumentName (repeated [] (paramsOfList ns)))) ∧
    (panicsAt [] (paramsOfList ns) → runM (checkDuplicateArgs ns []) s = .error .index) := by
  have := checksDup_list ns (fun n hn => checksDup_node (h n hn)) [] [] s ⟨by simp, by simp⟩
  refine ⟨fun hp => ?_, this.2⟩
  obtain ⟨map, hr, _⟩ := this.1 hp
  exact ⟨map, hr⟩

/-- When every name starts with an ASCII character nothing panics. -/
theorem C32_ascii (ps : List (Text × Loc)) (seen : List Text) (h : ∀ p ∈ ps, asciiStart p.1) : ¬ panicsAt seen ps := by
  induction ps generalizing seen with
  | nil => simp [panicsAt]
  | cons p rest ih =>
    simp only [panicsAt, not_or, not_and, Classical.not_not]
    exact ⟨fun _ => h p (by simp), ih _ fun q hq => h q (by simp [hq])⟩

/-- **C32 is false as stated**: `def m(é, é); end` panics in the check. -/
theorem C32_negation : runM (checkDuplicateArgs [.Arg [0xe9] ⟨6, 8⟩, .Arg [0xe9] ⟨10, 12⟩] []) {} = .error .index := rfl

/-- Non-vacuity: `a, (b, *a), _x, _x, &b`: the second `a` and the second `b` are reported. -/
example : paramsOfList [.Arg (lit "a") ⟨0, 1⟩, .Mlhs [.Arg (lit "b") ⟨4, 5⟩, .Restarg (some (lit "a")) ⟨7, 8⟩ (some ⟨8, 9⟩) ⟨7, 9⟩]
    none none ⟨3, 10⟩, .Arg (lit "_x") ⟨12, 14⟩, .Arg (lit "_x") ⟨16, 18⟩, .Blockarg (some (lit "b")) ⟨20, 21⟩ (some ⟨21, 22⟩) ⟨20, 22⟩] =
    [(lit "a", ⟨0, 1⟩), (lit "b", ⟨4, 5⟩), (lit "a", ⟨8, 9⟩), (lit "_x", ⟨12, 14⟩), (lit "_x", ⟨16, 18⟩), (lit "b", ⟨21, 22⟩)] := rfl
example : repeated [] [(lit "a", ⟨0, 1⟩), (lit "b", ⟨4, 5⟩), (lit "a", ⟨8, 9⟩), (lit "_x", ⟨12, 14⟩), (lit "_x", ⟨16, 18⟩),
    (lit "b", ⟨21, 22⟩)] = [⟨8, 9⟩, ⟨21, 22⟩] := by decide

/-! ### C33 -/

theorem voidValueLast_append (init : List Node) (last : Node) : voidValueLast (init ++ [last]) = voidValue last := by
  induction init with
  | nil => simp [voidValueLast]
  | cons n rest ih =>
    rw [List.cons_append]
    unfold voidValueLast
    cases h : rest ++ [last] with
    | nil => simp at h
    | cons a b => simpa [h] using ih

theorem list_last_cases (l : List Node) : l = [] ∨ ∃ init last, l = init ++ [last] := by
  rcases List.eq_nil_or_concat l with h | ⟨i, a, h⟩
  · exact .inl h
  · exact .inr ⟨i, a, by simpa using h⟩

theorem voidValue_of_voids {n : Node} (h : Voids n) : (voidValue n).isSome := by
  induction h with
  | seq _ ih => simpa [voidValue, voidValueLast_append] using ih
  | kwseq _ ih => simpa [voidValue, voidValueLast_append] using ih
  | ternary _ _ h1 h2 => simp [voidValue, h1, h2]
  | cond _ _ h1 h2 => simp [voidValue, h1, h2]
  | condMod _ _ h1 h2 => simp [voidValue, h1, h2]
  | matched _ ih => simpa [voidValue] using ih
  | matchedP _ ih => simpa [voidValue] using ih
  | and _ ih => simpa [voidValue] using ih
  | or _ ih => simpa [voidValue] using ih
  | _ => simp [voidValue]

/-- Found nodes are void and stand where the value comes from. -/
theorem voidValue_sound : ∀ (k : Nat) (n m : Node), sizeOf n < k → voidValue n = some m → Voids n ∧ Voids m ∧ ValueOf n m := by
  intro k
  induction k with
  | zero => intro n m hk; omega
  | succ k ih =>
    intro n m hk h
    have key : ∀ (l : List Node) (m : Node), sizeOf l < k → voidValueLast l = some m →
        ∃ init last, l = init ++ [last] ∧ Voids last ∧ Voids m ∧ ValueOf last m := by
      intro l m hl hv
      rcases list_last_cases l with rfl | ⟨init, last, rfl⟩
      · simp [voidValueLast] at hv
      · rw [voidValueLast_append] at hv
        have : sizeOf last < sizeOf (init ++ [last]) := List.sizeOf_lt_of_mem (by simp)
        exact ⟨init, last, rfl, ih last m (by omega) hv⟩
    cases n <;> (first | simp only [voidValue, reduceCtorEq, Option.some.injEq] at h | unfold voidValue at h) <;> try (simp only [Node.MatchPattern.sizeOf_spec,
      Node.MatchPatternP.sizeOf_spec, Node.Begin.sizeOf_spec, Node.KwBegin.sizeOf_spec, Node.IfTernary.sizeOf_spec,
      Node.If.sizeOf_spec, Node.IfMod.sizeOf_spec, Node.And.sizeOf_spec, Node.Or.sizeOf_spec] at hk)
    case Return => subst h; exact ⟨.ret, .ret, .refl⟩
    case Break => subst h; exact ⟨.brk, .brk, .refl⟩
    case Next => subst h; exact ⟨.nxt, .nxt, .refl⟩
    case Redo => subst h; exact ⟨.redo, .redo, .refl⟩
    case Retry => subst h; exact ⟨.retry, .retry, .refl⟩
    case MatchPattern => obtain ⟨a, b, c⟩ := ih _ m (by omega) h; exact ⟨.matched a, b, .matched c⟩
    case MatchPatternP => obtain ⟨a, b, c⟩ := ih _ m (by omega) h; exact ⟨.matchedP a, b, .matchedP c⟩
    case And => obtain ⟨a, b, c⟩ := ih _ m (by omega) h; exact ⟨.and a, b, .and c⟩
    case Or => obtain ⟨a, b, c⟩ := ih _ m (by omega) h; exact ⟨.or a, b, .or c⟩
    case Begin => obtain ⟨i, l, rfl, a, b, c⟩ := key _ m (by omega) h; exact ⟨.seq a, b, .seq c⟩
    case KwBegin => obtain ⟨i, l, rfl, a, b, c⟩ := key _ m (by omega) h; exact ⟨.kwseq a, b, .kwseq c⟩
    case IfTernary c t f q o x =>
      split at h
      · rename_i hv
        simp only [Bool.and_eq_true, Option.isSome_iff_exists] at hv
        obtain ⟨⟨a, ha⟩, ⟨b, hb⟩⟩ := hv
        simp only [Option.some.injEq] at h; subst h
        have h1 := (ih _ a (by omega) ha).1
        exact ⟨.ternary h1 (ih _ b (by omega) hb).1, h1, .ternary .refl⟩
      · simp at h
    case If c t f k b l e x =>
      split at h
      · split at h
        · rename_i hv
          simp only [Bool.and_eq_true, Option.isSome_iff_exists] at hv
          obtain ⟨⟨a, ha⟩, ⟨b, hb⟩⟩ := hv
          simp only [Option.some.injEq] at h; subst h
          simp only [Option.some.sizeOf_spec] at hk
          have h1 := (ih _ a (by omega) ha).1
          exact ⟨.cond h1 (ih _ b (by omega) hb).1, h1, .cond .refl⟩
        · simp at h
      · simp at h
    case IfMod c t f k x =>
      split at h
      · split at h
        · rename_i hv
          simp only [Bool.and_eq_true, Option.isSome_iff_exists] at hv
          obtain ⟨⟨a, ha⟩, ⟨b, hb⟩⟩ := hv
          simp only [Option.some.injEq] at h; subst h
          simp only [Option.some.sizeOf_spec] at hk
          have h1 := (ih _ a (by omega) ha).1
          exact ⟨.condMod h1 (ih _ b (by omega) hb).1, h1, .condMod .refl⟩
        · simp at h
      · simp at h

/-- **C33** `value_expr` accepts a node that yields a value and changes nothing; a node that always ends in a jump it rejects
with exactly one error, located at such a node standing where the value comes from. -/
theorem C33_value_expr (n : Node) (s : BState) :
    (¬ Voids n → runR (valueExpr n) s = .ok (.ok (), s)) ∧
    (Voids n → ∃ m, Voids m ∧ ValueOf n m ∧
      runR (valueExpr n) s = .ok (.error (), withErrors s .VoidValueExpression [m.expression])) := by
  constructor
  · intro h
    cases hv : voidValue n with
    | some m => exact absurd (voidValue_sound _ n m (Nat.lt_succ_self _) hv).1 h
    | none => simp [runR, valueExpr, hv, ExceptT.run, pure, ExceptT.pure, ExceptT.mk, StateT.pure, Except.pure]
  · intro h
    have := voidValue_of_voids h
    obtain ⟨m, hm⟩ := Option.isSome_iff_exists.1 this
    have hs := voidValue_sound _ n m (Nat.lt_succ_self _) hm
    refine ⟨m, hs.2.1, hs.2.2, ?_⟩
    simp [runR, valueExpr, hm, ExceptT.run, Builder.error, err, bind, ExceptT.bind, ExceptT.mk, ExceptT.bindCont, StateT.bind,
      Except.bind, liftM, monadLift, MonadLift.monadLift, ExceptT.lift, Functor.map, StateT.map, pure, StateT.pure, Except.pure,
      withErrors]

/-- Non-vacuity: `(foo; return) and bar` is rejected at the `return`. -/
example : runR (valueExpr (.And (.Begin [.Lvar (lit "foo") ⟨1, 4⟩, .Return [] ⟨6, 12⟩ ⟨6, 12⟩] (some ⟨0, 1⟩) (some ⟨12, 13⟩) ⟨0, 13⟩)
    (.Lvar (lit "bar") ⟨18, 21⟩) ⟨14, 17⟩ ⟨0, 21⟩)) {} =
    .ok (.error (), withErrors {} .VoidValueExpression [⟨6, 12⟩]) := rfl
/-- The branch, not the jump inside it, is where a conditional is reported. -/
example : runR (valueExpr (.IfTernary (.Lvar (lit "a") ⟨0, 1⟩) (.Begin [.Redo ⟨5, 9⟩] (some ⟨4, 5⟩) (some ⟨9, 10⟩) ⟨4, 10⟩)
    (.Retry ⟨13, 18⟩) ⟨2, 3⟩ ⟨11, 12⟩ ⟨0, 18⟩)) {} = .ok (.error (), withErrors {} .VoidValueExpression [⟨4, 10⟩]) := rfl

/-! ### C34 -/

/-- Induction over the condition positions of a tree. -/
theorem cond_induction {P : Node → Prop}
    (paren : ∀ st b e x, P st → P (.Begin [st] b e x))
    (and : ∀ l r o x, P l → P r → P (.And l r o x))
    (or : ∀ l r o x, P l → P r → P (.Or l r o x))
    (irange : ∀ l r o x, (∀ a ∈ l, P a) → (∀ a ∈ r, P a) → P (.Irange l r o x))
    (erange : ∀ l r o x, (∀ a ∈ l, P a) → (∀ a ∈ r, P a) → P (.Erange l r o x))
    (regexp : ∀ p opt b e x, P (.Regexp p opt b e x))
    (other : ∀ n, (checkCondition n = n) → isPlain n = false → (∀ l r o x, n ≠ .And l r o x) → (∀ l r o x, n ≠ .Or l r o x) →
      (∀ st b e x, n ≠ .Begin [st] b e x) → P n) : ∀ n, P n := by
  have : ∀ (k : Nat) (n : Node), sizeOf n < k → P n := by
    intro k
    induction k with
    | zero => intro n h; omega
    | succ k ih =>
      intro n hk
      cases n
      case Begin st b e x =>
        match st, hk with
        | [], _ => exact other _ (by simp [checkCondition, checkConditionSingle]) rfl (by simp) (by simp) (by simp)
        | [s], hk => exact paren _ _ _ _ (ih _ (by simp at hk; omega))
        | a :: c :: r, _ => exact other _ (by simp [checkCondition, checkConditionSingle]) rfl (by simp) (by simp) (by simp)
      case And => simp only [Node.And.sizeOf_spec] at hk; exact and _ _ _ _ (ih _ (by omega)) (ih _ (by omega))
      case Or => simp only [Node.Or.sizeOf_spec] at hk; exact or _ _ _ _ (ih _ (by omega)) (ih _ (by omega))
      case Irange l r o x =>
        simp only [Node.Irange.sizeOf_spec] at hk
        refine irange _ _ _ _ (fun a ha => ih a ?_) (fun a ha => ih a ?_)
        · simp only [Option.mem_def] at ha; subst ha; simp at hk; omega
        · simp only [Option.mem_def] at ha; subst ha; simp at hk; omega
      case Erange l r o x =>
        simp only [Node.Erange.sizeOf_spec] at hk
        refine erange _ _ _ _ (fun a ha => ih a ?_) (fun a ha => ih a ?_)
        · simp only [Option.mem_def] at ha; subst ha; simp at hk; omega
        · simp only [Option.mem_def] at ha; subst ha; simp at hk; omega
      case Regexp => exact regexp _ _ _ _ _
      all_goals exact other _ (by simp only [checkCondition]) rfl (by simp) (by simp) (by simp)
  exact fun n => this _ n (Nat.lt_succ_self _)

/-- **C34** rewriting a condition keeps its location, changes nothing but ranges and regexps in condition position, and doing it
again changes nothing. -/
theorem C34_condition_rewriting (n : Node) :
    (checkCondition n).expression = n.expression ∧ SameUpToCond n (checkCondition n) ∧
    checkCondition (checkCondition n) = checkCondition n := by
  induction n using cond_induction with
  | paren st b e x ih =>
    refine ⟨by simp [checkCondition, Node.expression], ?_, ?_⟩
    · simpa [checkCondition, checkConditionSingle] using SameUpToCond.paren ih.2.1
    · simp [checkCondition, checkConditionSingle, ih.2.2]
  | and l r o x hl hr =>
    refine ⟨by simp [checkCondition, Node.expression], ?_, ?_⟩
    · simpa [checkCondition] using SameUpToCond.and hl.2.1 hr.2.1
    · simp [checkCondition, hl.2.2, hr.2.2]
  | or l r o x hl hr =>
    refine ⟨by simp [checkCondition, Node.expression], ?_, ?_⟩
    · simpa [checkCondition] using SameUpToCond.or hl.2.1 hr.2.1
    · simp [checkCondition, hl.2.2, hr.2.2]
  | irange l r o x hl hr =>
    refine ⟨by simp [checkCondition, Node.expression], ?_, by simp [checkCondition]⟩
    simp only [checkCondition]
    refine .irange ?_ ?_ ?_ ?_
    · cases l <;> simp [checkConditionOpt]
    · cases r <;> simp [checkConditionOpt]
    · intro a ha a' ha'; cases ha; simp [checkConditionOpt] at ha'; subst ha'; exact (hl a rfl).2.1
    · intro a ha a' ha'; cases ha; simp [checkConditionOpt] at ha'; subst ha'; exact (hr a rfl).2.1
  | erange l r o x hl hr =>
    refine ⟨by simp [checkCondition, Node.expression], ?_, by simp [checkCondition]⟩
    simp only [checkCondition]
    refine .erange ?_ ?_ ?_ ?_
    · cases l <;> simp [checkConditionOpt]
    · cases r <;> simp [checkConditionOpt]
    · intro a ha a' ha'; cases ha; simp [checkConditionOpt] at ha'; subst ha'; exact (hl a rfl).2.1
    · intro a ha a' ha'; cases ha; simp [checkConditionOpt] at ha'; subst ha'; exact (hr a rfl).2.1
  | regexp p opt b e x =>
    refine ⟨by simp [checkCondition, Node.expression], ?_, by simp [checkCondition]⟩
    simpa [checkCondition] using SameUpToCond.regexp
  | other n h => exact ⟨by rw [h], by rw [h]; exact .refl, by rw [h, h]⟩

/-- **C34** afterwards no range and no bare regexp is left in condition position (the input having no flip-flops of its own,
which only this function makes). -/
theorem C34_no_plain_left (n : Node)
    (hn : ∀ m, CondPos n m → (∀ l r o x, m ≠ .IFlipFlop l r o x) ∧ (∀ l r o x, m ≠ .EFlipFlop l r o x)) :
    ∀ m, CondPos (checkCondition n) m → isPlain m = false := by
  induction n using cond_induction with
  | paren st b e x ih =>
    intro m hm
    simp only [checkCondition, checkConditionSingle] at hm
    cases hm with
    | refl => rfl
    | paren h => exact ih (fun k hk => hn k (.paren hk)) m h
  | and l r o x hl hr =>
    intro m hm
    simp only [checkCondition] at hm
    cases hm with
    | refl => rfl
    | andL h => exact hl (fun k hk => hn k (.andL hk)) m h
    | andR h => exact hr (fun k hk => hn k (.andR hk)) m h
  | or l r o x hl hr =>
    intro m hm
    simp only [checkCondition] at hm
    cases hm with
    | refl => rfl
    | orL h => exact hl (fun k hk => hn k (.orL hk)) m h
    | orR h => exact hr (fun k hk => hn k (.orR hk)) m h
  | irange l r o x hl hr =>
    intro m hm
    simp only [checkCondition] at hm
    cases l <;> cases r <;> simp only [checkConditionOpt] at hm <;> cases hm <;> first
      | rfl
      | exact hl _ rfl (fun k hk => hn k (.irangeL hk)) m (by assumption)
      | exact hr _ rfl (fun k hk => hn k (.irangeR hk)) m (by assumption)
  | erange l r o x hl hr =>
    intro m hm
    simp only [checkCondition] at hm
    cases l <;> cases r <;> simp only [checkConditionOpt] at hm <;> cases hm <;> first
      | rfl
      | exact hl _ rfl (fun k hk => hn k (.erangeL hk)) m (by assumption)
      | exact hr _ rfl (fun k hk => hn k (.erangeR hk)) m (by assumption)
  | regexp p opt b e x =>
    intro m hm
    simp only [checkCondition] at hm
    cases hm; rfl
  | other n h hp hand hor hb =>
    intro m hm
    rw [h] at hm
    have hff := hn n .refl
    cases hm with
    | refl => exact hp
    | paren => exact absurd rfl (hb _ _ _ _)
    | andL => exact absurd rfl (hand _ _ _ _)
    | andR => exact absurd rfl (hand _ _ _ _)
    | orL => exact absurd rfl (hor _ _ _ _)
    | orR => exact absurd rfl (hor _ _ _ _)
    | irangeL => simp [isPlain] at hp
    | irangeR => simp [isPlain] at hp
    | erangeL => simp [isPlain] at hp
    | erangeR => simp [isPlain] at hp
    | iflipL => exact absurd rfl (hff.1 _ _ _ _)
    | iflipR => exact absurd rfl (hff.1 _ _ _ _)
    | eflipL => exact absurd rfl (hff.2 _ _ _ _)
    | eflipR => exact absurd rfl (hff.2 _ _ _ _)

/-- Non-vacuity: `(a../x/)`. -/
example : checkCondition (.Begin [.Irange (some (.Lvar (lit "a") ⟨1, 2⟩)) (some (.Regexp [] none ⟨4, 5⟩ ⟨6, 7⟩ ⟨4, 7⟩)) ⟨2, 4⟩ ⟨1, 7⟩]
      (some ⟨0, 1⟩) (some ⟨7, 8⟩) ⟨0, 8⟩) =
    .Begin [.IFlipFlop (some (.Lvar (lit "a") ⟨1, 2⟩)) (some (.MatchCurrentLine (.Regexp [] none ⟨4, 5⟩ ⟨6, 7⟩ ⟨4, 7⟩) ⟨4, 7⟩))
      ⟨2, 4⟩ ⟨1, 7⟩] (some ⟨0, 1⟩) (some ⟨7, 8⟩) ⟨0, 8⟩ := rfl

/-! ### C36 -/

mutual
theorem staticStringNode_eq : (n : Node) → staticStringNode n = ((leavesOf n).mapM literal).map (fun fs => (fs.map Utf8.lossy).flatten)
  | .Begin statements _ _ _ => by simpa [staticStringNode, leavesOf] using staticString_eq statements
  | .Str value _ _ _ => by simp [staticStringNode, leavesOf, literal]
  | n => by
    cases n <;> first
      | (simp [staticStringNode, leavesOf, literal]; done)
      | (simpa [staticStringNode, leavesOf] using staticString_eq _)
theorem staticString_eq : (ns : List Node) → staticString ns = ((leaves ns).mapM literal).map (fun fs => (fs.map Utf8.lossy).flatten)
  | [] => by simp [staticString, leaves]
  | n :: rest => by
    simp only [staticString, leaves, List.mapM_append]
    rw [staticStringNode_eq n, staticString_eq rest]
    cases (leavesOf n).mapM literal with
    | none => simp
    | some a => cases (leaves rest).mapM literal with
      | none => simp
      | some b => simp
end

/-- **C36** `static_string` succeeds exactly when every part, interpolations of literals dissolved, is literal, and is then the
concatenation of the fragments. -/
theorem C36_static_string (ns : List Node) :
    (∀ fragments : List Bytes, (leaves ns).map literal = fragments.map some →
      staticString ns = some ((fragments.map Utf8.lossy).flatten)) ∧
    ((∃ n ∈ leaves ns, literal n = none) → staticString ns = none) := by
  rw [staticString_eq]
  generalize leaves ns = l
  constructor
  · intro fr h
    have : l.mapM literal = some fr := by
      induction l generalizing fr with
      | nil => cases fr <;> simp_all
      | cons a as ih =>
        cases fr with
        | nil => simp at h
        | cons f fs =>
          simp only [List.map_cons, List.cons.injEq] at h
          simp [h.1, ih fs h.2]
    rw [this]; rfl
  · rintro ⟨n, hn, hl⟩
    have : l.mapM literal = none := by
      induction l with
      | nil => simp at hn
      | cons a as ih =>
        simp only [List.mem_cons] at hn
        rcases hn with rfl | hn
        · simp [hl]
        · cases ha : literal a with
          | none => simp [ha]
          | some v => simp [ha, ih hn]
    rw [this]; rfl

/-- Non-vacuity: `"a#{"b"}c"`. -/
example : staticString [.Str (ascs "a") none none ⟨1, 2⟩, .Begin [.Str (ascs "b") none none ⟨4, 7⟩] none none ⟨2, 8⟩,
    .Str (ascs "c") none none ⟨8, 9⟩] = some (lit "abc") := rfl
example : staticString [.Str (ascs "a") none none ⟨1, 2⟩, .Begin [.Lvar (lit "b") ⟨4, 5⟩] none none ⟨2, 6⟩] = none := rfl

/-! ### C35 -/

/-- `_1` … `_9`. -/
def numparam (d : Nat) : Text := [95, 48 + d]

theorem isNumparamName_iff (name : Text) : isNumparamName name = true ↔ ∃ d, 1 ≤ d ∧ d ≤ 9 ∧ name = numparam d := by
  unfold isNumparamName
  split
  · rename_i u n
    simp only [Bool.and_eq_true, beq_iff_eq, decide_eq_true_eq, numparam]
    constructor
    · rintro ⟨⟨rfl, h1⟩, h2⟩; exact ⟨n - 48, by omega, by omega, by simp; omega⟩
    · rintro ⟨d, h1, h2, h⟩; simp at h; omega
  · rename_i h
    simp only [Bool.false_eq_true, numparam, false_iff]
    rintro ⟨d, _, _, rfl⟩
    exact h _ _ rfl

/-- The enclosing scopes up to the nearest static one that already use numbered parameters. -/
def usingOuter (outer : List NumItem) : List NumItem := (outer.takeWhile fun i => !i.isStatic).filter fun i => i.value > 0

theorem numparamErrors_spec (loc : Loc) (outer : List NumItem) (s : BState) :
    runM (numparamErrors loc outer) s = .ok ((), withErrors s .NumparamUsed ((usingOuter outer).map fun _ => loc)) := by
  induction outer generalizing s with
  | nil => simp [numparamErrors, usingOuter, runM, pure, StateT.pure, Except.pure, withErrors]
  | cons i rest ih =>
    unfold numparamErrors
    by_cases hs : i.isStatic
    · simp [hs, usingOuter, runM, pure, StateT.pure, Except.pure, withErrors]
    · by_cases hv : i.value > 0
      · have := ih (withErrors s .NumparamUsed [loc])
        simp only [runM] at this
        simp only [hs, hv, runM, bind, StateT.bind, Except.bind, Builder.error, if_false, if_true, Bool.false_eq_true]
        have h2 : ({ s with diagnostics := s.diagnostics ++ [⟨.error, .NumparamUsed, loc⟩] } : BState) =
            withErrors s .NumparamUsed [loc] := by simp [withErrors]
        rw [h2, this, withErrors_append]
        simp [usingOuter, hs, hv]
      · have := ih s
        simp only [runM] at this
        simp only [hs, hv, if_false, Bool.false_eq_true]
        rw [this]
        simp [usingOuter, hs, hv]

/-- **C35** `_1` … `_9` become parameters exactly inside a block or lambda when no such variable is declared: the name is
declared, the innermost scope's maximum is raised to at least its number, one error is reported if that scope has ordinary
parameters and one for each enclosing scope up to the nearest static one that uses numbered parameters; any other name, or any
other place, changes nothing. -/
theorem C35_try_declare_numparam (name : Text) (loc : Loc) (s : BState) :
    (∀ d item outer, 1 ≤ d → d ≤ 9 → name = numparam d → name ∉ s.staticEnv.variables →
      s.context.get .inBlock = true ∨ s.context.get .inLambda = true → s.numparams.stack = item :: outer →
      runM (tryDeclareNumparam name loc) s = .ok (true,
        { s with
          staticEnv := ⟨name :: s.staticEnv.variables, s.staticEnv.stack⟩
          numparams := ⟨{ item with value := max item.value d } :: outer⟩
          diagnostics := s.diagnostics ++ (if item.value = -1 then [⟨.error, .OrdinaryParamDefined, loc⟩] else []) ++
            (usingOuter outer).map fun _ => ⟨.error, .NumparamUsed, loc⟩ })) ∧
    ((∀ d, 1 ≤ d → d ≤ 9 → name ≠ numparam d) ∨ name ∈ s.staticEnv.variables ∨
      (s.context.get .inBlock = false ∧ s.context.get .inLambda = false) →
      runM (tryDeclareNumparam name loc) s = .ok (false, s)) := by
  constructor
  · rintro d item outer h1 h2 rfl hv hc hst
    have hdyn : s.context.isInDynamicBlock = true := by simpa [Context.isInDynamicBlock] using hc
    have hdec : s.staticEnv.isDeclared (numparam d) = false := by simpa [StaticEnv.isDeclared] using hv
    unfold numparam at hdec hv ⊢
    have hg : ((95 : Nat) == 95 && (decide (49 ≤ 48 + d) && decide (48 + d ≤ 57)) && !s.staticEnv.isDeclared [95, 48 + d] &&
        s.context.isInDynamicBlock) = true := by
      simp [hdyn, hdec]; omega
    have hord : s.numparams.hasOrdinaryParams = decide (item.value = -1) := by
      simp [NumStack.hasOrdinaryParams, NumStack.top, hst, NumStack.ORDINARY_PARAMS]; rfl
    have herr := numparamErrors_spec loc outer
    simp only [runM] at herr
    have hreg : s.numparams.register (((48 + d : Nat) : Int) - 48) = .ok ⟨{ item with value := max item.value d } :: outer⟩ := by
      simp only [NumStack.register, NumStack.set, hst, NumStack.top]
      rw [show (((48 + d : Nat) : Int) - 48) = d by omega]
    have hreg' : s.numparams.register (48 + (d : Int) - 48) = .ok ⟨{ item with value := max item.value d } :: outer⟩ := by
      rw [← hreg]; simp
    simp only [runM, tryDeclareNumparam, bind, StateT.bind, Except.bind, getThe, MonadStateOf.get, StateT.get, pure,
      Except.pure, get, liftM, monadLift]
    rw [if_pos hg]
    simp only [hord, decide_eq_true_eq]
    by_cases ho : item.value = -1
    · simp only [ho, if_true]
      simp [Builder.error, NumStack.innerClone, hst, herr, bind, StateT.bind, Except.bind, modify, modifyGet,
        MonadStateOf.modifyGet, StateT.modifyGet, pure, Except.pure, StateT.pure, liftR, hreg', withErrors, StaticEnv.declare, ho,
        Function.comp_def]
    · simp only [ho, if_false]
      simp [NumStack.innerClone, hst, herr, bind, StateT.bind, Except.bind, modify, modifyGet,
        MonadStateOf.modifyGet, StateT.modifyGet, pure, Except.pure, StateT.pure, liftR, hreg', withErrors, StaticEnv.declare, ho,
        Function.comp_def]
  · intro h
    simp only [runM, tryDeclareNumparam, bind, StateT.bind, Except.bind, getThe, MonadStateOf.get, StateT.get, pure,
      Except.pure, get, liftM, monadLift]
    split
    · rename_i u n
      rw [if_neg]
      · rfl
      · intro hg
        simp only [Bool.and_eq_true, beq_iff_eq, decide_eq_true_eq, Bool.not_eq_true', StaticEnv.isDeclared,
          decide_eq_false_iff_not, Context.isInDynamicBlock, Bool.or_eq_true] at hg
        obtain ⟨⟨⟨rfl, hn1, hn2⟩, hd⟩, hc⟩ := hg
        rcases h with h | h | h
        · exact h (n - 48) (by omega) (by omega) (by simp [numparam]; omega)
        · exact hd h
        · simp [h.1, h.2] at hc
    · rfl

theorem runR_error_err (msg : BldMsg) (loc : Loc) (s : BState) :
    runR (do Builder.error msg loc; err : BldR α) s = .ok (.error (), withErrors s msg [loc]) := by
  simp [runR, ExceptT.run, Builder.error, err, bind, ExceptT.bind, ExceptT.mk, ExceptT.bindCont, StateT.bind,
    Except.bind, liftM, monadLift, MonadLift.monadLift, ExceptT.lift, Functor.map, StateT.map, pure, StateT.pure, Except.pure,
    withErrors]

/-- **C35** a parameter (or method) named `_1` … `_9` is reported and refused, any other name is accepted. -/
theorem C35_reserved (name : Text) (loc : Loc) (s : BState) :
    ((∃ d, 1 ≤ d ∧ d ≤ 9 ∧ name = numparam d) →
      runR (checkReservedForNumparam name loc) s = .ok (.error (), withErrors s (.ReservedForNumparam name) [loc])) ∧
    (¬ (∃ d, 1 ≤ d ∧ d ≤ 9 ∧ name = numparam d) → runR (checkReservedForNumparam name loc) s = .ok (.ok (), s)) := by
  rw [← isNumparamName_iff]
  constructor
  · intro h; simp only [checkReservedForNumparam, h, if_true]; exact runR_error_err _ _ _
  · intro h; simp [checkReservedForNumparam, h, runR, ExceptT.run, pure, ExceptT.pure, ExceptT.mk, StateT.pure, Except.pure]

/-- **C35** assigning to `_1` … `_9` inside a block or lambda whose scope uses numbered parameters is reported and refused;
every other assignment passes. -/
theorem C35_assignment (name : Text) (loc : Loc) (s : BState) :
    let bad := (∃ d, 1 ≤ d ∧ d ≤ 9 ∧ name = numparam d) ∧
      (s.context.get .inBlock = true ∨ s.context.get .inLambda = true) ∧ (∃ i ∈ s.numparams.stack.head?, i.value > 0)
    (bad → runR (checkAssignmentToNumparam name loc) s = .ok (.error (), withErrors s (.CantAssignToNumparam name) [loc])) ∧
    (¬ bad → runR (checkAssignmentToNumparam name loc) s = .ok (.ok (), s)) := by
  intro bad
  have hb : bad ↔ (s.context.isInDynamicBlock && isNumparamName name && s.numparams.hasNumparams) = true := by
    simp only [bad, ← isNumparamName_iff, Bool.and_eq_true, Context.isInDynamicBlock, Bool.or_eq_true]
    have : (∃ i ∈ s.numparams.stack.head?, i.value > 0) ↔ s.numparams.hasNumparams = true := by
      generalize s.numparams = np
      obtain ⟨st⟩ := np
      cases st <;> simp [NumStack.hasNumparams, NumStack.top]
    rw [this]
    constructor
    · rintro ⟨a, b, c⟩; exact ⟨⟨b, a⟩, c⟩
    · rintro ⟨⟨b, a⟩, c⟩; exact ⟨a, b, c⟩
  rw [hb]
  constructor
  · intro h
    simp [runR, checkAssignmentToNumparam, h, ExceptT.run, Builder.error, err, bind, ExceptT.bind, ExceptT.mk, ExceptT.bindCont,
      StateT.bind, Except.bind, liftM, monadLift, MonadLift.monadLift, ExceptT.lift, Functor.map, StateT.map, pure, StateT.pure,
      Except.pure, withErrors, getThe, MonadStateOf.get, StateT.get, get]
  · intro h
    simp [runR, checkAssignmentToNumparam, h, ExceptT.run, bind, ExceptT.bind, ExceptT.mk, ExceptT.bindCont,
      StateT.bind, Except.bind, liftM, monadLift, MonadLift.monadLift, ExceptT.lift, Functor.map, StateT.map, pure, StateT.pure,
      Except.pure, getThe, MonadStateOf.get, StateT.get, get, ExceptT.pure]

/-- Non-vacuity: `_2` in a block inside a block that uses `_1`. -/
example : let s : BState := { context := (Context.empty.set .inBlock true), numparams := ⟨[⟨0, false⟩, ⟨1, false⟩, ⟨0, true⟩]⟩ }
    runM (tryDeclareNumparam (numparam 2) ⟨5, 7⟩) s = .ok (true, { s with
      staticEnv := ⟨[numparam 2], []⟩, numparams := ⟨[⟨2, false⟩, ⟨1, false⟩, ⟨0, true⟩]⟩,
      diagnostics := [⟨.error, .NumparamUsed, ⟨5, 7⟩⟩] }) := by decide +kernel

/-! ### C37 -/

/-- A hash without braces. -/
def isBraceless (n : Node) : Prop := ∃ pairs x, n = .Hash pairs none none x

theorem isKwargs_iff (n : Node) : isKwargs n = true ↔ isBraceless n := by
  unfold isKwargs
  split
  · simp [isBraceless]
  · rename_i h
    simp only [Bool.false_eq_true, isBraceless, false_iff]
    rintro ⟨p, x, rfl⟩
    exact h _ _ rfl

/-- **C37** of the arguments of a call only a brace-less hash in last position, or before a trailing block-pass, is replaced, by
a kwargs node with the same pairs and location; the rewriting never panics. -/
theorem C37_kwargs (init : List Node) (pairs : List Node) (x : Loc) (v : Option Node) (o y : Loc) (args : List Node) :
    rewriteHashArgsToKwargs (init ++ [.Hash pairs none none x]) = .ok (init ++ [.Kwargs pairs x]) ∧
    rewriteHashArgsToKwargs (init ++ [.Hash pairs none none x, .BlockPass v o y]) =
      .ok (init ++ [.Kwargs pairs x, .BlockPass v o y]) ∧
    ((∀ init n, args = init ++ [n] → ¬ isBraceless n) →
      (∀ init n v o y, args = init ++ [n, .BlockPass v o y] → ¬ isBraceless n) → rewriteHashArgsToKwargs args = .ok args) := by
  refine ⟨?_, ?_, ?_⟩
  · simp [rewriteHashArgsToKwargs, isKwargs, hashToKwargs, bind, Except.bind, pure, Except.pure]
  · simp [rewriteHashArgsToKwargs, isKwargs, hashToKwargs, bind, Except.bind, pure, Except.pure]
  · intro h1 h2
    unfold rewriteHashArgsToKwargs
    cases hr : args.reverse with
    | nil => rfl
    | cons last rest =>
      have ha : args = rest.reverse ++ [last] := by
        have := congrArg List.reverse hr; simpa using this
      have hk : isKwargs last = false := by
        rw [← Bool.not_eq_true, isKwargs_iff]; exact h1 _ _ ha
      simp only [hk, Bool.false_eq_true, if_false]
      split
      · rename_i v o y prev rest'
        have hk' : isKwargs prev = false := by
          rw [← Bool.not_eq_true, isKwargs_iff]
          exact h2 rest'.reverse prev _ _ _ (by simpa using ha)
        simp [hk']
      · rfl

/-- Non-vacuity: `f(a, {b: 1})` is left alone, `f(a, b: 1, &c)` is not. -/
example : rewriteHashArgsToKwargs [.Nil ⟨2, 5⟩, .Hash [] (some ⟨7, 8⟩) (some ⟨8, 9⟩) ⟨7, 9⟩] =
    .ok [.Nil ⟨2, 5⟩, .Hash [] (some ⟨7, 8⟩) (some ⟨8, 9⟩) ⟨7, 9⟩] := rfl
example : rewriteHashArgsToKwargs [.Nil ⟨2, 5⟩, .Hash [.Nil ⟨7, 9⟩] none none ⟨7, 9⟩, .BlockPass none ⟨11, 12⟩ ⟨11, 12⟩] =
    .ok [.Nil ⟨2, 5⟩, .Kwargs [.Nil ⟨7, 9⟩] ⟨7, 9⟩, .BlockPass none ⟨11, 12⟩ ⟨11, 12⟩] := rfl

/-! ### C38 -/

/-- The outcome of a check for each entry of a pattern, in order; an entry that is refused does not stop the others. -/
def runAll (check : Text → Loc → BldR Unit) : List (Text × Loc) → BState → Except Panic BState
  | [], s => .ok s
  | (name, l) :: rest, s => do
    let (_, s) ← runR (check name l) s
    runAll check rest s

theorem checkDuplicatePatternVariable_spec (name : Text) (loc : Loc) (s : BState) (layer : List Text) (outer : List (List Text))
    (hs : s.patternVariables = ⟨layer :: outer⟩) :
    runR (checkDuplicatePatternVariable name loc) s =
      if name.head? = some 95 then .ok (.ok (), s)
      else if name ∈ layer then .ok (.error (), withErrors s .DuplicateVariableName [loc])
      else .ok (.ok (), { s with patternVariables := ⟨(name :: layer) :: outer⟩ }) := by
  by_cases h1 : name.head? = some 95
  · simp [runR, checkDuplicatePatternVariable, h1, ExceptT.run, pure, ExceptT.pure, ExceptT.mk, StateT.pure, Except.pure]
  · by_cases h2 : name ∈ layer
    · simp [runR, checkDuplicatePatternVariable, h1, h2, hs, VarStack.isDeclared, liftR, ExceptT.run, Builder.error, err, bind,
        ExceptT.bind, ExceptT.mk, ExceptT.bindCont, StateT.bind, Except.bind, liftM, monadLift, MonadLift.monadLift, ExceptT.lift,
        Functor.map, StateT.map, pure, StateT.pure, Except.pure, withErrors, getThe, MonadStateOf.get, StateT.get, get,
        ExceptT.pure]
    · simp [runR, checkDuplicatePatternVariable, h1, h2, hs, VarStack.isDeclared, VarStack.declare, liftR, ExceptT.run, bind,
        ExceptT.bind, ExceptT.mk, ExceptT.bindCont, StateT.bind, Except.bind, liftM, monadLift, MonadLift.monadLift, ExceptT.lift,
        Functor.map, StateT.map, pure, StateT.pure, Except.pure, getThe, MonadStateOf.get, StateT.get, get, set,
        MonadStateOf.set, StateT.set, ExceptT.pure]

theorem checkDuplicatePatternKey_spec (name : Text) (loc : Loc) (s : BState) (layer : List Text) (outer : List (List Text))
    (hs : s.patternHashKeys = ⟨layer :: outer⟩) :
    runR (checkDuplicatePatternKey name loc) s =
      if name ∈ layer then .ok (.error (), withErrors s .DuplicateKeyName [loc])
      else .ok (.ok (), { s with patternHashKeys := ⟨(name :: layer) :: outer⟩ }) := by
  by_cases h2 : name ∈ layer
  · simp [runR, checkDuplicatePatternKey, h2, hs, VarStack.isDeclared, liftR, ExceptT.run, Builder.error, err, bind,
        ExceptT.bind, ExceptT.mk, ExceptT.bindCont, StateT.bind, Except.bind, liftM, monadLift, MonadLift.monadLift, ExceptT.lift,
        Functor.map, StateT.map, pure, StateT.pure, Except.pure, withErrors, getThe, MonadStateOf.get, StateT.get, get]
  · simp [runR, checkDuplicatePatternKey, h2, hs, VarStack.isDeclared, VarStack.declare, liftR, ExceptT.run, bind,
        ExceptT.bind, ExceptT.mk, ExceptT.bindCont, StateT.bind, Except.bind, liftM, monadLift, MonadLift.monadLift, ExceptT.lift,
        Functor.map, StateT.map, pure, StateT.pure, Except.pure, getThe, MonadStateOf.get, StateT.get, get, set,
        MonadStateOf.set, StateT.set]

/-- **C38** over the variables of one pattern (in a fresh layer), exactly the repeated ones that do not start with an underscore
are reported, each at the repeated occurrence; the outer layers stay as they are. -/
theorem C38_pattern_variables (names : List (Text × Loc)) (layer : List Text) (outer : List (List Text)) (s : BState)
    (hs : s.patternVariables = ⟨layer :: outer⟩) :
    ∃ layer', runAll checkDuplicatePatternVariable names s = .ok (withErrors { s with patternVariables := ⟨layer' :: outer⟩ }
      .DuplicateVariableName (repeatedBy (fun n => n.head? != some 95) layer names)) := by
  induction names generalizing s layer with
  | nil =>
    refine ⟨layer, ?_⟩
    simp [runAll, repeatedBy, withErrors, ← hs]
  | cons p rest ih =>
    obtain ⟨name, l⟩ := p
    simp only [runAll, checkDuplicatePatternVariable_spec name l s layer outer hs, repeatedBy]
    by_cases h1 : name.head? = some 95
    · simp only [h1, if_true, bind, Except.bind, bne_self_eq_false, Bool.false_eq_true, if_false]
      exact ih layer s hs
    · have hb : (name.head? != some 95) = true := by simpa using h1
      simp only [h1, if_false, hb, if_true]
      by_cases h2 : name ∈ layer
      · simp only [h2, if_true, bind, Except.bind]
        obtain ⟨layer', h⟩ := ih layer (withErrors s .DuplicateVariableName [l]) (by simpa [withErrors] using hs)
        refine ⟨layer', ?_⟩
        rw [h]; simp [withErrors]
      · simp only [h2, if_false, bind, Except.bind]
        obtain ⟨layer', h⟩ := ih (name :: layer) { s with patternVariables := ⟨(name :: layer) :: outer⟩ } rfl
        exact ⟨layer', by rw [h]⟩

/-- **C38** over the keys of one hash pattern exactly the repeated ones are reported, each at the repeated occurrence. -/
theorem C38_pattern_keys (names : List (Text × Loc)) (layer : List Text) (outer : List (List Text)) (s : BState)
    (hs : s.patternHashKeys = ⟨layer :: outer⟩) :
    ∃ layer', runAll checkDuplicatePatternKey names s = .ok (withErrors { s with patternHashKeys := ⟨layer' :: outer⟩ }
      .DuplicateKeyName (repeatedBy (fun _ => true) layer names)) := by
  induction names generalizing s layer with
  | nil =>
    refine ⟨layer, ?_⟩
    simp [runAll, repeatedBy, withErrors, ← hs]
  | cons p rest ih =>
    obtain ⟨name, l⟩ := p
    simp only [runAll, checkDuplicatePatternKey_spec name l s layer outer hs, repeatedBy, if_true]
    by_cases h2 : name ∈ layer
    · simp only [h2, if_true, bind, Except.bind]
      obtain ⟨layer', h⟩ := ih layer (withErrors s .DuplicateKeyName [l]) (by simpa [withErrors] using hs)
      refine ⟨layer', ?_⟩
      rw [h]; simp [withErrors]
    · simp only [h2, if_false, bind, Except.bind]
      obtain ⟨layer', h⟩ := ih (name :: layer) { s with patternHashKeys := ⟨(name :: layer) :: outer⟩ } rfl
      exact ⟨layer', by rw [h]⟩

/-- Non-vacuity: `[a, _, b, a, _, b]`. -/
example : repeatedBy (fun n => n.head? != some 95) [] [(lit "a", ⟨1, 2⟩), (lit "_", ⟨4, 5⟩), (lit "b", ⟨7, 8⟩), (lit "a", ⟨10, 11⟩),
    (lit "_", ⟨13, 14⟩), (lit "b", ⟨16, 17⟩)] = [⟨10, 11⟩, ⟨16, 17⟩] := by decide

/-! ### C39 -/

theorem insertChar_mem (c d : Nat) (l : Text) : d ∈ insertChar c l ↔ d = c ∨ d ∈ l := by
  induction l with
  | nil => simp [insertChar]
  | cons e rest ih =>
    simp only [insertChar]
    split
    · simp
    · simp only [List.mem_cons, ih]
      constructor
      · rintro (h | h | h) <;> simp [h]
      · rintro (h | h | h) <;> simp [h]

theorem insertChar_sorted (c : Nat) (l : Text) (h : l.Pairwise (· ≤ ·)) : (insertChar c l).Pairwise (· ≤ ·) := by
  induction l with
  | nil => simp [insertChar]
  | cons e rest ih =>
    simp only [insertChar]
    rw [List.pairwise_cons] at h
    split
    · rename_i hce
      rw [List.pairwise_cons, List.pairwise_cons]
      refine ⟨fun d hd => ?_, h⟩
      simp only [List.mem_cons] at hd
      rcases hd with rfl | hd
      · exact hce
      · exact Nat.le_trans hce (h.1 d hd)
    · rename_i hce
      rw [List.pairwise_cons]
      refine ⟨fun d hd => ?_, ih h.2⟩
      rw [insertChar_mem] at hd
      rcases hd with rfl | hd
      · omega
      · exact h.1 d hd

theorem sortChars_spec (l : Text) : (sortChars l).Pairwise (· ≤ ·) ∧ ∀ d, d ∈ sortChars l ↔ d ∈ l := by
  induction l with
  | nil => simp [sortChars]
  | cons c rest ih =>
    refine ⟨insertChar_sorted c _ ih.1, fun d => ?_⟩
    simp [sortChars, insertChar_mem, ih.2]

theorem dedupChars_spec (l : Text) (h : l.Pairwise (· ≤ ·)) :
    (dedupChars l).Pairwise (· < ·) ∧ ∀ d, d ∈ dedupChars l ↔ d ∈ l := by
  induction l with
  | nil => simp [dedupChars]
  | cons c rest ih =>
    rw [List.pairwise_cons] at h
    obtain ⟨h1, h2⟩ := ih h.2
    simp only [dedupChars]
    cases hd : dedupChars rest with
    | nil =>
      rw [hd] at h2
      refine ⟨by simp, fun d => ?_⟩
      have := h2 d
      simp at this ⊢
      exact fun hh => absurd hh this
    | cons e rest' =>
      rw [hd] at h1 h2
      have hce : c ≤ e := h.1 e ((h2 e).1 (by simp))
      simp only
      split
      · rename_i he
        subst he
        refine ⟨h1, fun d => ?_⟩
        rw [h2 d, List.mem_cons]
        constructor
        · exact .inr
        · rintro (rfl | hh)
          · exact (h2 d).1 (by simp)
          · exact hh
      · rename_i he
        refine ⟨?_, fun d => ?_⟩
        · rw [List.pairwise_cons]
          refine ⟨fun d hd' => ?_, h1⟩
          simp only [List.mem_cons] at hd'
          rw [List.pairwise_cons] at h1
          rcases hd' with rfl | hd'
          · omega
          · have := h1.1 d hd'; omega
        · rw [List.mem_cons, h2 d, List.mem_cons]

/-- **C39** for a token covering its text (the closing delimiter and the option letters, which are ASCII): no node when there
are no options; otherwise a node located at the letters that lists each letter of the literal, strictly increasing. -/
theorem C39_regexp_options (t : Token) (c : Nat) (options : Text) (hv : Builder.value t = .ok (c :: options))
    (hl : t.loc.stop = t.loc.begin + 1 + options.length) (h31 : t.loc.stop < 2 ^ 31) :
    (options = [] → regexpOptions t = .ok none) ∧
    (options ≠ [] → ∃ os, regexpOptions t = .ok (some (.RegOpt (some os) ⟨t.loc.begin + 1, t.loc.stop⟩)) ∧
      os.Pairwise (· < ·) ∧ ∀ o, o ∈ os ↔ o ∈ options) := by
  have hsub : csub t.loc.stop t.loc.begin = .ok (1 + options.length) := by
    rw [csub_of_le (by omega)]; congr 1; omega
  constructor
  · rintro rfl
    simp [regexpOptions, hsub, bind, Except.bind, pure, Except.pure]
  · intro hne
    have hs := sortChars_spec options
    have hd := dedupChars_spec _ hs.1
    refine ⟨dedupChars (sortChars options), ?_, hd.1, fun o => by rw [hd.2, hs.2]⟩
    have h1 : ¬ (1 + options.length = 1) := by
      have : options.length ≠ 0 := by simpa using hne
      omega
    have hadj : t.loc.adjustBegin 1 = .ok ⟨t.loc.begin + 1, t.loc.stop⟩ := by
      have e : Loc.adjustNat t.loc.begin 1 = .ok (t.loc.begin + 1) := by
        unfold Loc.adjustNat
        rw [if_pos (by omega)]
        simp only
        rw [if_pos (by omega), if_pos (by omega)]
        congr 1
      simp [Loc.adjustBegin, e, bind, Except.bind, pure, Except.pure]
    have hemp : (dedupChars (sortChars options)).isEmpty = false := by
      rw [← Bool.not_eq_true]
      intro he
      simp only [List.isEmpty_iff] at he
      cases options with
      | nil => exact hne rfl
      | cons a r =>
        have : a ∈ dedupChars (sortChars (a :: r)) := by rw [hd.2, hs.2]; simp
        rw [he] at this; simp at this
    simp [regexpOptions, hsub, bind, Except.bind, pure, Except.pure, hne, hadj, hv, hemp]

/-- Non-vacuity: `/mixm`. -/
example : regexpOptions ⟨.tSTRING_END, ascs "/mixm", ⟨7, 12⟩⟩ = .ok (some (.RegOpt (some (lit "imx")) ⟨8, 12⟩)) := rfl

/-! ### C40 -/

/-- A rest argument. -/
def isRest : Node → Bool
  | .Restarg .. => true
  | _ => false
/-- A forwarding argument. -/
def isForward : Node → Bool
  | .ForwardArg .. => true
  | _ => false

theorem lastRestForward_spec (args : List Node) (r f : Option Node) :
    lastRestForward args r f = ((args.filter isRest).getLast?.or r, (args.filter isForward).getLast?.or f) := by
  induction args generalizing r f with
  | nil => simp [lastRestForward]
  | cons n rest ih =>
    unfold lastRestForward
    split
    · rw [ih]; simp [isRest, isForward]
    · rw [ih]; simp [isRest, isForward]
    · rename_i h1 h2
      have e1 : isRest n = false := by
        cases n <;> first | rfl | exact absurd rfl (h1 _ _ _ _)
      have e2 : isForward n = false := by
        cases n <;> first | rfl | exact absurd rfl (h2 _)
      rw [ih]; simp [e1, e2]

/-- **C40** an error is reported exactly when there are a rest argument and a forwarding argument, at the (last) forwarding
argument. -/
theorem C40_forward_after_rest (args : List Node) (s : BState) :
    ((∃ r ∈ args, isRest r) → ∀ f, (args.filter isForward).getLast? = some f →
      runM (validateNoForwardArgAfterRestarg args) s = .ok ((), withErrors s .ForwardArgAfterRestarg [f.expression])) ∧
    ((∀ r ∈ args, isRest r = false) ∨ (∀ f ∈ args, isForward f = false) →
      runM (validateNoForwardArgAfterRestarg args) s = .ok ((), s)) := by
  simp only [runM, validateNoForwardArgAfterRestarg, lastRestForward_spec, Option.or_none]
  constructor
  · rintro ⟨r, hr, hrr⟩ f hf
    have : args.filter isRest ≠ [] := by
      intro h; have := List.filter_eq_nil_iff.1 h r hr; exact this hrr
    have hq := List.getLast?_eq_some_getLast this
    rw [hq, hf]
    simp [Builder.error, withErrors]
  · rintro (h | h)
    · have : args.filter isRest = [] := List.filter_eq_nil_iff.2 (by simpa using h)
      simp [this, pure, StateT.pure, Except.pure]
    · have : args.filter isForward = [] := List.filter_eq_nil_iff.2 (by simpa using h)
      simp only [this]
      cases (List.filter isRest args).getLast? <;> simp [pure, StateT.pure, Except.pure]

/-- Non-vacuity: `(*a, ...)`. -/
example : runM (validateNoForwardArgAfterRestarg [.Restarg (some (lit "a")) ⟨1, 2⟩ (some ⟨2, 3⟩) ⟨1, 3⟩, .ForwardArg ⟨5, 8⟩]) {} =
    .ok ((), withErrors {} .ForwardArgAfterRestarg [⟨5, 8⟩]) := rfl

end Verif.Props
