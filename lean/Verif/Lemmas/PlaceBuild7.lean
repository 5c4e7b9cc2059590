import Verif.Lemmas.PlaceBuild6
/-!
Where the nodes made by the builder's functions lie, given where their arguments lie: seventh part, literals and patterns.
-/
namespace Verif
open Builder

theorem apart_of {o e : Option Token} (h0 : OTok.At o p0 p1) (h : p1 ≤ p2) (h1 : OTok.At e p2 p3) : Apart (maybeLoc o) (maybeLoc e) := by
  rcases o with _ | o <;> rcases e with _ | e <;> simp only [maybeLoc, Option.map_none, Option.map_some, Apart]
  simp only [OTok.At, Token.At] at *; omega

theorem strNode_at {x0 : Option Token} {v : Bytes} {x1 : List Node} {x2 : Option Token} (h0 : OTok.At x0 p0 p1) (h1 : Nodes.At x1 p1 p2)
    (h2 : OTok.At x2 p2 p3) (hh : isHeredoc x0 = false) : Res.Gives (strNode x0 v x1 x2) (·.At p0 p3) := by
  unfold strNode
  rw [hh]
  refine Res.gives_bind (collectionMap_at h0 h1 h2) fun m hm => Res.gives_pure ?_
  obtain ⟨e1, e2, g1, g2, g3, g4, g5, g6⟩ := hm
  rw [at_Str, e1, e2]
  exact ⟨⟨g1, g3⟩, g2, g5, g6, apart_of h0 h1.le h2⟩

theorem stringComposeMany_at {x0 : Option Token} {x1 : List Node} {x2 : Option Token} (h0 : OTok.At x0 p0 p1) (h1 : Nodes.At x1 p1 p2)
    (h2 : OTok.At x2 p2 p3) (hh : isHeredoc x0 = false) : Res.Gives (stringComposeMany x0 x1 x2) (·.At p0 p3) := by
  unfold stringComposeMany
  rw [hh]
  refine Res.gives_bind (collectionMap_at h0 h1 h2) fun m hm => Res.gives_pure ?_
  obtain ⟨e1, e2, g1, g2, g3, g4, g5, g6⟩ := hm
  rw [at_Dstr, e1, e2]
  exact ⟨⟨g1, g3⟩, g2, g4, g5, g6⟩

/-- Quoted strings, adjacent literals. -/
theorem stringCompose_at {x0 : Option Token} {x1 : List Node} {x2 : Option Token} (h0 : OTok.At x0 p0 p1) (h1 : Nodes.At x1 p1 p2)
    (h2 : OTok.At x2 p2 p3) (hh : isHeredoc x0 = false) : Res.Gives (stringCompose x0 x1 x2) (·.At p0 p3) := by
  have only : ∀ n, Nodes.At [n] p1 p2 → n.At p0 p3 := fun n h => (h.mem (by simp)).mono h0.le h2.le
  unfold stringCompose
  split
  · exact strNode_at h0 h1 h2 hh
  · split
    · exact Res.gives_ok (only _ h1)
    · exact strNode_at h0 h1 h2 hh
  · split
    · exact Res.gives_ok (only _ h1)
    · exact Res.gives_error
  · split
    · exact Res.gives_ok (only _ h1)
    · exact Res.gives_error
  · exact stringComposeMany_at h0 h1 h2 hh

theorem heredocMap_at {x0 : Token} {x1 : List Node} {x2 : Option Token} (h0 : x0.At p0 p1) :
    Res.Gives (heredocMap (some x0) x1 x2) (fun m => p0 ≤ m.expressionL.begin ∧ m.expressionL.begin ≤ m.expressionL.stop ∧
      m.expressionL.stop ≤ p1) := by
  unfold heredocMap
  intro m hm
  rcases x2 with _ | x2
  · simp [orExpect, bind, Except.bind] at hm
  · simp only [maybeLoc] at hm
    cases hm
    exact h0

/-- Heredocs: the node is where its beginning is, whatever the place of the text. -/
theorem stringCompose_heredoc_at {x0 : Token} {x1 : List Node} {x2 : Token} (h0 : x0.At p0 p1) (h1 : ∀ c ∈ x1, Nested c)
    (hh : isHeredoc (some x0) = true) : Res.Gives (stringCompose (some x0) x1 (some x2)) (·.At p0 p1) := by
  have k1 : ∀ v, Res.Gives (strNode (some x0) v x1 (some x2)) (·.At p0 p1) := fun v => by
    unfold strNode
    rw [hh]
    refine Res.gives_bind (heredocMap_at h0) fun m hm => Res.gives_pure ?_
    rw [at_Heredoc]
    exact ⟨⟨hm.1, hm.2.2⟩, hm.2.1, h1⟩
  have k2 : Res.Gives (stringComposeMany (some x0) x1 (some x2)) (·.At p0 p1) := by
    unfold stringComposeMany
    rw [hh]
    refine Res.gives_bind (heredocMap_at h0) fun m hm => Res.gives_pure ?_
    rw [at_Heredoc]
    exact ⟨⟨hm.1, hm.2.2⟩, hm.2.1, h1⟩
  unfold stringCompose
  split
  · exact k1 _
  · exact k1 _
  · exact Res.gives_error
  · exact Res.gives_error
  · exact k2

theorem dedentHeredocParts_at {w : Nat} {ps : List Node} (h : ∀ c ∈ ps, Nested c) :
    Res.Gives (dedentHeredocParts w ps) (fun r => ∀ c ∈ r, Nested c) := by
  induction ps with
  | nil => exact Res.gives_ok (by simp)
  | cons p ps ih =>
    have ih := ih fun c hc => h c (by simp [hc])
    unfold dedentHeredocParts
    split
    · refine Res.gives_bind ih fun r hr => Res.gives_pure ?_
      have := h _ (List.mem_cons_self)
      rw [nested_Str] at this
      split
      · exact hr
      · exact List.forall_mem_cons.2 ⟨by rw [nested_Str]; exact this, hr⟩
    all_goals first
      | exact Res.gives_bind ih fun r hr => Res.gives_pure (List.forall_mem_cons.2 ⟨h _ (List.mem_cons_self), hr⟩)
      | exact Res.gives_error

theorem heredocDedent_at {x0 : Node} {w : Int} (h0 : x0.At p0 p1) : Res.Gives (heredocDedent x0 w) (·.At p0 p1) := by
  unfold heredocDedent
  split
  · exact Res.gives_ok h0
  · split
    · exact Res.gives_error
    · split
      · rw [at_Heredoc] at h0
        refine Res.gives_bind (dedentHeredocParts_at h0.2.2) fun r hr => Res.gives_pure ?_
        rw [at_Heredoc]; exact ⟨h0.1, h0.2.1, hr⟩
      · rw [at_XHeredoc] at h0
        refine Res.gives_bind (dedentHeredocParts_at h0.2.2) fun r hr => Res.gives_pure ?_
        rw [at_XHeredoc]; exact ⟨h0.1, h0.2.1, hr⟩
      · exact Res.gives_error

theorem xstringCompose_at {x0 : Token} {x1 : List Node} {x2 : Token} (h0 : x0.At p0 p1) (h1 : Nodes.At x1 p1 p2) (h2 : x2.At p2 p3) :
    (xstringCompose x0 x1 x2).At p0 p3 := by
  unfold xstringCompose
  split
  · have := h0.le; have := h1.le; have := h2.le
    simp only [Token.At] at *
    rw [at_XHeredoc]
    exact ⟨by omega, by omega, fun c hc => (h1.mem hc).1⟩
  · place at_Xstr

theorem xstringCompose_heredoc_at {x0 : Token} {x1 : List Node} {x2 : Token} (h0 : x0.At p0 p1) (h1 : ∀ c ∈ x1, Nested c)
    (hh : startsHeredoc x0.tokenValue = true) : (xstringCompose x0 x1 x2).At p0 p1 := by
  unfold xstringCompose
  rw [if_pos hh]
  simp only [Token.At] at *
  rw [at_XHeredoc]
  exact ⟨by omega, by omega, h1⟩

theorem symbolCompose_at {x0 : Token} {x1 : List Node} {x2 : Token} (h0 : x0.At p0 p1) (h1 : Nodes.At x1 p1 p2) (h2 : x2.At p2 p3) :
    BldM.Gives (symbolCompose x0 x1 x2) (·.At p0 p3) := by
  unfold symbolCompose
  split
  · refine BldM.gives_bind (BldM.gives_liftR (collectionMap_at (o := some x0) (ns := []) (e := some x2) h0 (b := p1) (c := p2) h1.le h2)) fun m hm =>
      BldM.gives_any fun _ => BldM.gives_pure ?_
    obtain ⟨e1, e2, g1, g2, g3, g4, g5, g6⟩ := hm
    rw [at_Sym, e1, e2]
    exact ⟨⟨g1, g3⟩, g2, g5, g6⟩
  · refine BldM.gives_bind (BldM.gives_liftR (collectionMap_at (o := some x0) (e := some x2) h0 h1 h2)) fun m hm =>
      BldM.gives_pure ?_
    obtain ⟨e1, e2, g1, g2, g3, g4, g5, g6⟩ := hm
    rw [at_Dsym, e1, e2]
    exact ⟨⟨g1, g3⟩, g2, g4, g5, g6⟩

theorem regexpOptions_at {x0 : Token} (h0 : x0.At p0 p1) (hs : x0.loc.begin + 1 ≤ x0.loc.stop) :
    Res.Gives (regexpOptions x0) (fun r => r = none ∨ ∃ o l, r = some (.RegOpt o l) ∧ x0.loc.begin + 1 = l.begin ∧ l.stop = x0.loc.stop) := by
  unfold regexpOptions
  refine Res.gives_any fun _ => ?_
  split
  · exact Res.gives_pure (Or.inl rfl)
  · refine Res.gives_bind (P := fun l => x0.loc.begin + 1 = l.begin ∧ l.stop = x0.loc.stop) ?_ fun l hl => Res.gives_any fun _ =>
      Res.gives_pure (Or.inr ⟨_, _, rfl, hl⟩)
    intro l hl
    unfold Loc.adjustBegin at hl
    cases ha : Loc.adjustNat x0.loc.begin 1 with
    | error e => rw [ha] at hl; cases hl
    | ok n =>
      rw [ha] at hl
      cases hl
      refine ⟨?_, rfl⟩
      unfold Loc.adjustNat at ha
      dsimp only at ha
      split at ha
      · split at ha
        · split at ha
          · cases ha; show x0.loc.begin + 1 = Int.toNat (x0.loc.begin + 1); omega
          · cases ha
        · cases ha
      · cases ha

theorem regexp_at {x0 : Token} {x1 : List Node} {x2 : Token} (h0 : x0.At p0 p1) (h1 : Nodes.At x1 p1 p2) (h2 : x2.At p2 p3)
    (hs : x2.loc.begin + 1 ≤ x2.loc.stop) :
    BldM.Gives (do let o ← liftR (regexpOptions x2); regexpCompose ext x0 x1 x2 o) (·.At p0 p3) := by
  refine BldM.gives_bind (BldM.gives_liftR (regexpOptions_at h2 hs)) fun o ho => ?_
  unfold regexpCompose
  rcases ho with rfl | ⟨o, l, rfl, e1, e2⟩
  · refine BldM.gives_any fun _ => BldM.gives_pure ?_
    simp only [Loc.resize]
    place at_Regexp
  · refine BldM.gives_any fun _ => BldM.gives_pure ?_
    have h3 : (Node.RegOpt o l).At p2 p3 := by rw [at_RegOpt]; simp only [Token.At] at h2; omega
    have e3 : (Node.RegOpt o l).expression = l := rfl
    simp only [Loc.resize]
    rw [← e3] at e1 e2
    clear e3
    generalize Node.RegOpt o l = c at *
    place at_Regexp

theorem word_at {x0 : List Node} (h0 : Nodes.At x0 p0 p1) : Res.Gives (word x0) (·.At p0 p1) := by
  unfold word
  split
  · exact Res.gives_ok (h0.mem (by simp))
  · exact Res.gives_ok (h0.mem (by simp))
  · refine Res.gives_bind (collectionMap_at (o := none) (e := none) (Nat.le_refl _) h0 (Nat.le_refl _)) fun m hm => Res.gives_pure ?_
    obtain ⟨e1, e2, g1, g2, g3, g4, g5, g6⟩ := hm
    rw [at_Dstr, e1, e2]
    exact ⟨⟨g1, g3⟩, g2, g4, g5, g6⟩

theorem symbolPart_at {x0 : Node} (h0 : x0.At p0 p1) : BldM.Gives (symbolPart x0) (·.At p0 p1) := by
  unfold symbolPart
  split
  · refine BldM.gives_any fun _ => BldM.gives_pure ?_
    rw [at_Str] at h0; rw [at_Sym]; exact ⟨h0.1, h0.2.1, h0.2.2.1, h0.2.2.2.1⟩
  · refine BldM.gives_pure ?_
    rw [at_Dstr] at h0; rw [at_Dsym]; exact h0
  · exact BldM.gives_pure h0

theorem symbolParts_at {x0 : List Node} (h0 : Nodes.At x0 p0 p1) : BldM.Gives (x0.mapM symbolPart) (fun r => Nodes.At r p0 p1) := by
  induction x0 generalizing p0 with
  | nil => exact BldM.gives_pure h0
  | cons n ns ih =>
    obtain ⟨m, h1, h2⟩ := h0
    rw [List.mapM_cons]
    exact BldM.gives_bind (symbolPart_at h1) fun r hr => BldM.gives_bind (ih h2) fun rs hrs => BldM.gives_pure ⟨m, hr, hrs⟩

theorem symbolsCompose_at {x0 : Token} {x1 : List Node} {x2 : Token} (h0 : x0.At p0 p1) (h1 : Nodes.At x1 p1 p2) (h2 : x2.At p2 p3) :
    BldM.Gives (symbolsCompose x0 x1 x2) (·.At p0 p3) := by
  unfold symbolsCompose
  refine BldM.gives_bind (symbolParts_at h1) fun r hr => BldM.gives_pure ?_
  clear h1
  place at_Array

theorem csub_gives : Res.Gives (csub a b) (fun r => r = a - b ∧ b ≤ a) := by
  intro r hr
  unfold csub at hr
  split at hr
  · cases hr; exact ⟨rfl, by assumption⟩
  · cases hr

theorem pairKeyword_at {x0 : Token} {x1 : Node} (h0 : x0.At p0 p1) (h1 : x1.At p1 p2) (hs : x0.loc.begin + 1 ≤ x0.loc.stop) :
    BldM.Gives (pairKeyword x0 x1) (·.At p0 p2) := by
  unfold pairKeyword
  refine BldM.gives_bind (BldM.gives_liftR (adjustEnd_at h0 hs)) fun l hl => BldM.gives_bind (BldM.gives_liftR csub_gives) fun d hd =>
    BldM.gives_any fun _ => BldM.gives_pure ?_
  have h2 : (Node.Sym x0.tokenValue none none l).At x0.loc.begin x0.loc.stop := by
    rw [at_Sym]; simp only [oloc_none, and_true]; omega
  generalize Node.Sym x0.tokenValue none none l = c at *
  place at_Pair

theorem pairQuoted_at {x0 : Token} {x1 : List Node} {x2 : Token} {x3 : Node} (h0 : x0.At p0 p1) (h1 : Nodes.At x1 p1 p2)
    (h2 : x2.At p2 p3) (h3 : x3.At p3 p4) (hs : x2.loc.begin + 2 ≤ x2.loc.stop) :
    BldM.Gives (pairQuoted x0 x1 x2 x3) (·.At p0 p4) := by
  unfold pairQuoted
  refine BldM.gives_bind (BldM.gives_liftR csub_gives) fun d hd => BldM.gives_bind (BldM.gives_liftR csub_gives) fun e he =>
    BldM.gives_bind (BldM.gives_liftR csub_gives) fun f hf => ?_
  refine BldM.gives_bind (symbolCompose_at (x2 := { x2 with loc := ⟨d, e⟩ }) (p0 := x0.loc.begin) (by simp only [Token.At] at *; omega) h1
    (p3 := x2.loc.stop) ?_) fun n hn => BldM.gives_pure ?_
  · simp only [Token.At] at *; omega
  · place at_Pair

/-- `pair_keyword` with a value made from the label itself. -/
theorem pairKeyword_self_at {x0 : Token} {x1 : Node} (h0 : x0.At p0 p1) (h1 : x1.At x0.loc.begin x0.loc.stop)
    (hs : x0.loc.begin + 1 ≤ x0.loc.stop) : BldM.Gives (pairKeyword x0 x1) (·.At p0 p1) := by
  unfold pairKeyword
  refine BldM.gives_bind (BldM.gives_liftR (adjustEnd_at h0 hs)) fun l hl => BldM.gives_bind (BldM.gives_liftR csub_gives) fun d hd =>
    BldM.gives_any fun _ => BldM.gives_pure ?_
  have h2 : (Node.Sym x0.tokenValue none none l).At x0.loc.begin x0.loc.stop := by
    rw [at_Sym]; simp only [oloc_none, and_true]; omega
  generalize Node.Sym x0.tokenValue none none l = c at *
  place at_Pair

theorem pairLabel_at {x0 : Token} (h0 : x0.At p0 p1) (hs : x0.loc.begin + 1 ≤ x0.loc.stop) :
    BldM.Gives (pairLabel ext x0) (·.At p0 p1) := by
  unfold pairLabel
  refine BldM.gives_bind (BldM.gives_liftR (adjustEnd_at h0 hs)) fun l hl => BldM.gives_any fun label => ?_
  split
  · exact BldM.gives_panic
  · dsimp only
    refine BldM.gives_bind (accessible_at (p0 := x0.loc.begin) (p1 := x0.loc.stop) ?_) fun v hv => pairKeyword_self_at h0 hv hs
    split
    · rw [at_Lvar]; omega
    · rw [at_Const]; simp only [okid_none, oloc_none, Loc.Within, true_and]; omega

theorem adjustNat_gives {n : Nat} {d : Int} : Res.Gives (Loc.adjustNat n d) (fun r => (r : Int) = n + d) := by
  intro r ha
  unfold Loc.adjustNat at ha
  dsimp only at ha
  split at ha
  · split at ha
    · split at ha
      · cases ha; omega
      · cases ha
    · cases ha
  · cases ha

theorem narrowName_at {x : Loc} {b e : Option Loc} (hx : x.begin ≤ x.stop) (hb : OLoc.In b x) (he : OLoc.In e x) (ha : Apart b e) :
    Res.Gives (narrowName x b e) (fun l => l.Within x) := by
  have key : ∀ l : Loc, l.stop = x.stop → x.begin ≤ l.begin → l.begin ≤ x.stop → (∀ e' ∈ e, l.begin ≤ e'.begin) →
      Res.Gives (match e with
        | some e => do
          let d ← e.size
          if d < 2 ^ 31 then l.adjustEnd (-(d : Int)) else .error .expect
        | none => .ok l) (fun l => l.Within x) := by
    intro l h1 h2 h3 h4
    rcases e with _ | e
    · refine Res.gives_ok ?_
      simp only [Loc.Within]; omega
    · refine Res.gives_bind csub_gives fun d hd => ?_
      split
      · refine Res.gives_bind adjustNat_gives fun r hr => Res.gives_pure ?_
        have he := oloc_some.1 he
        have := h4 e rfl
        simp only [Loc.Within] at *
        omega
      · exact Res.gives_error
  unfold narrowName
  dsimp only
  rcases b with _ | b
  · refine Res.gives_bind (P := (· = x)) (Res.gives_ok rfl) fun l hl => ?_
    subst hl
    refine key _ rfl (Nat.le_refl _) hx fun e' h => ?_
    cases h
    exact (oloc_some.1 he).1
  · refine Res.gives_bind csub_gives fun d hd => ?_
    split
    · refine Res.gives_bind (P := fun l => x.stop = l.stop ∧ l.begin = x.begin + d)
        (Res.gives_bind adjustNat_gives fun r hr => Res.gives_pure ⟨rfl, by simp only []; omega⟩) fun l hl => ?_
      have hb := oloc_some.1 hb
      simp only [Loc.Within] at hb
      refine key _ hl.1.symm (by omega) (by omega) fun e' h => ?_
      cases h
      simp only [Apart] at ha
      omega
    · exact Res.gives_bind (P := fun _ => False) Res.gives_error fun _ h => h.elim

theorem matchHashVarFromStr_aux {ext : BldExt} {x0 x2 : Token} (g1 : x0.loc.begin ≤ x0.loc.stop) (g2 : x2.loc.begin ≤ x2.loc.stop)
    (g3 : p0 ≤ x0.loc.begin) (g4 : x2.loc.stop ≤ p3) : ∀ (k : Nat) (ns : List Node), sizeOf ns ≤ k →
    (∀ n ∈ ns, n.At x0.loc.stop x2.loc.begin) → BldR.Gives (matchHashVarFromStr ext x0 x2 ns) (·.At p0 p3) := by
  intro k
  induction k with
  | zero => intro ns hk; cases ns <;> simp at hk
  | succ k ih =>
    intro ns hk h
    rcases ns with _ | ⟨n, _ | ⟨m, ns⟩⟩
    · unfold matchHashVarFromStr
      exact BldR.gives_any fun _ => BldR.gives_err
    · rw [show matchHashVarFromStr ext x0 x2 [n] = matchHashVarFromNode ext x0 x2 n from by rw [matchHashVarFromStr]]
      have h := h n (by simp)
      unfold matchHashVarFromNode
      split
      · rw [at_Str] at h
        refine BldR.gives_any fun _ => BldR.gives_bind (BldR.gives_lift (BldM.gives_liftR (narrowName_at h.2.1 h.2.2.1 h.2.2.2.1 h.2.2.2.2)))
          fun l hl => BldR.gives_pure ?_
        rw [at_MatchVar]
        simp only [Loc.Within, Loc.join] at *
        omega
      · rw [at_Begin] at h
        refine ih _ ?_ fun n hn => ?_
        · simp at hk; omega
        · have := h.2.2.1 n hn
          simp only [Kid, Loc.Within] at this
          exact ⟨this.1, by omega, by omega, by omega⟩
      · exact BldR.gives_any fun _ => BldR.gives_err
    · unfold matchHashVarFromStr
      exact BldR.gives_any fun _ => BldR.gives_err

theorem matchHashVarFromStr_at {x0 : Token} {x1 : List Node} {x2 : Token} (h0 : x0.At p0 p1) (h1 : Nodes.At x1 p1 p2) (h2 : x2.At p2 p3) :
    BldR.Gives (matchHashVarFromStr ext x0 x2 x1) (·.At p0 p3) := by
  simp only [Token.At] at h0 h2
  exact matchHashVarFromStr_aux h0.2.1 h2.2.1 h0.1 h2.2.2 _ _ (Nat.le_refl _) fun n hn =>
    (h1.mem hn).mono h0.2.2 h2.1

theorem matchHashVar_at {x0 : Token} (h0 : x0.At p0 p1) (hs : x0.loc.begin + 1 ≤ x0.loc.stop) :
    BldR.Gives (matchHashVar ext x0) (·.At p0 p1) := by
  unfold matchHashVar
  refine BldR.gives_bind (BldR.gives_lift (BldM.gives_liftR (adjustEnd_at h0 hs))) fun l hl => BldR.gives_any fun _ => BldR.gives_any fun _ =>
    BldR.gives_pure ?_
  place at_MatchVar

theorem matchRest_at {x0 : Token} {x1 : Option Token} (h0 : x0.At p0 p1) (h1 : OTok.At x1 p1 p2) :
    BldR.Gives (matchRest ext x0 x1) (·.At p0 p2) := by
  unfold matchRest
  rcases x1 with _ | x1
  · refine BldR.gives_pure ?_
    place at_MatchRest
  · refine BldR.gives_bind (P := fun r => ONode.At r p1 p2) ?_ fun r hr => BldR.gives_pure ?_
    · rw [show (some <$> matchVar ext x1 : BldR (Option Node)) = (matchVar ext x1 >>= fun r => pure (some r)) from by simp]
      exact BldR.gives_bind (matchVar_at h1) fun r hr => BldR.gives_pure hr
    · clear h1
      rcases r with _ | r <;> place at_MatchRest

/-- Where a label of a hash pattern lies. -/
def LabelAt : PKwLabel → Nat → Nat → Prop
  | .PlainLabel t, a, b => t.At a b ∧ t.loc.begin + 1 ≤ t.loc.stop
  | .QuotedLabel t ps e, a, b => ∃ p q, t.At a p ∧ Nodes.At ps p q ∧ e.At q b ∧ e.loc.begin + 2 ≤ e.loc.stop

theorem LabelAt.le {k : PKwLabel} (h : LabelAt k a b) : a ≤ b := by
  cases k with
  | PlainLabel t => exact h.1.le
  | QuotedLabel t ps e =>
    obtain ⟨p, q, h1, h2, h3, -⟩ := h
    have := h1.le; have := h2.le; have := h3.le; omega

theorem matchPair_at {x0 : PKwLabel} {x1 : Node} (h0 : LabelAt x0 p0 p1) (h1 : x1.At p1 p2) :
    BldR.Gives (matchPair x0 x1) (·.At p0 p2) := by
  unfold matchPair
  split
  · exact BldR.gives_any fun _ => BldR.gives_lift (pairKeyword_at h0.1 h1 h0.2)
  · obtain ⟨p, q, g1, g2, g3, g4⟩ := h0
    dsimp only
    split
    · exact BldR.gives_any fun _ => BldR.gives_lift (pairQuoted_at g1 g2 g3 h1 g4)
    · exact BldR.gives_any fun _ => BldR.gives_bind (P := fun _ => False) BldR.gives_err fun _ h => h.elim

theorem matchLabel_at {x0 : PKwLabel} (h0 : LabelAt x0 p0 p1) : BldR.Gives (matchLabel ext x0) (·.At p0 p1) := by
  unfold matchLabel
  split
  · exact matchHashVar_at h0.1 h0.2
  · obtain ⟨p, q, g1, g2, g3, g4⟩ := h0
    exact matchHashVarFromStr_at g1 g2 g3

end Verif
