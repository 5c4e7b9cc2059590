
theorem held_cond {x0 : Option Token} {x1 : List Node} {no yes ne : Bool} {m : Kinds} (h0 : (Abs.otok no yes).Has (.otok x0))
    (h1 : (Abs.nodes m ne).Has (.nodes x1)) (h : (ne || !no) = true) : x0.isSome = true ∨ x1 ≠ [] := by
  cases ne with
  | true => exact .inr (h1.2 rfl)
  | false =>
    cases x0 with
    | none => rw [h0.1 rfl] at h; cases h
    | some => exact .inl rfl
theorem sendK_has {n : Node} {m : Kinds} {l : List Node} {dot : Bool} (hl : OkL m l) (h : Ok (callK dot l.isEmpty) n) :
    Ok (sendK m dot) n := by
  unfold sendK
  split
  · next h0 =>
    rw [beq_iff_eq] at h0
    subst h0
    rw [okl_zero hl] at h
    exact h
  · refine ⟨has_or.2 ?_, h.2⟩
    have := h.1
    revert this
    cases l.isEmpty
    · exact .inr
    · exact .inl

theorem polyHeld_some {k r : Kinds} {as : List Abs} {o : Abs} {xs : List Atom} (h : polyHeld k r as = some o) (hx : HasL as xs) :
    ∃ x0 x1 x2, xs = [.otok x0, .nodes x1, .otok x2] ∧ (x0.isSome = true ∨ x1 ≠ []) ∧ OkL k x1 ∧ o = .node r := by
  unfold polyHeld at h
  split at h
  · split at h
    · next hc =>
      rw [Bool.and_eq_true] at hc
      cases h
      obtain ⟨_, _, rfl, h0, r0⟩ := hasL_cons hx
      obtain ⟨x0, rfl, h0⟩ := has_otok h0
      obtain ⟨_, _, rfl, h1, r1⟩ := hasL_cons r0
      obtain ⟨x1, rfl, h1⟩ := has_nodes h1
      obtain ⟨_, _, rfl, h2, r2⟩ := hasL_cons r1
      obtain ⟨x2, rfl, h2⟩ := has_otok h2
      cases hasL_nil r2
      exact ⟨x0, x1, x2, rfl, held_cond h0 h1 hc.1, h1.1.mono hc.2, rfl⟩
    · cases h
  · cases h

theorem polySend_some {c m : Kinds} {o : Abs} (h : polySend c m = some o) :
    sub c receiverK = true ∧ sub m callArgK = true ∧ o = .node (sendK m true) := by
  unfold polySend at h
  split at h
  · next hc => rw [Bool.and_eq_true] at hc; cases h; exact ⟨hc.1, hc.2, rfl⟩
  · cases h
theorem polyCall_some {m : Kinds} {o : Abs} (h : polyCall m = some o) : sub m callArgK = true ∧ o = .node (sendK m false) := by
  unfold polyCall at h
  split at h
  · next hc => cases h; exact ⟨hc, rfl⟩
  · cases h
theorem polyJump_safe {g : Prop} {p : KeywordCmd} {m : Kinds} {ne : Bool} {o : Abs} {t : Token} {l r : Option Token} {x : List Node}
    (h : polyJump p m ne = some o) (hx : (Abs.nodes m ne).Has (.nodes x)) :
    BldR.Safe g (outB .node (keywordCmd p t l x r)) o.Has := by
  unfold polyJump at h
  split at h
  · next hc =>
    rw [Bool.and_eq_true, Bool.or_eq_true, Bool.or_eq_true, beq_iff_eq, beq_iff_eq, beq_iff_eq, or_assoc] at hc
    cases h
    refine outB_safe (jump_safe hc.1 (hx.1.mono hc.2)) fun n hn => ?_
    show Ok _ n
    split
    · next hk =>
      rw [Bool.and_eq_true] at hk
      exact hn.2 (hx.1.mono hk.2) (hx.2 hk.1)
    · exact hn.1
  · cases h

theorem poly_safe {g : Prop} {ext : BldExt} {indent : Int} {f : BFn} {as : List Abs} {o : Abs} {xs : List Atom} (h : f.poly as = some o)
    (hx : HasL as xs) : BldR.Safe g (applyFn ext indent f xs) o.Has := by
  unfold BFn.poly at h
  split at h
  · split at h
    · cases h; exact withN_safe hx fun x0 h0 => outp_safe ⟨oko_some.2 h0, fun _ => rfl⟩
    · cases h
  · split at h
    · cases h; exact withN_safe hx fun x0 h0 => outp_safe ⟨okl_one h0, fun _ => nofun⟩
    · cases h
  · split at h
    · next a x b y =>
      cases h
      refine withLL_safe hx fun x0 x1 h0 h1 => outp_safe ⟨okl_append.2 ⟨fun n hn => ?_, fun n hn => ?_⟩, fun hc => ?_⟩
      · exact ⟨has_or.2 (.inl (h0.1 n hn).1), (h0.1 n hn).2⟩
      · exact ⟨has_or.2 (.inr (h1.1 n hn).1), (h1.1 n hn).2⟩
      · rw [Bool.or_eq_true] at hc
        rcases hc with hc | hc
        · have := h0.2 hc; simp [this]
        · have := h1.2 hc; simp [this]
    · cases h
  · split at h
    · next m =>
      cases h
      refine withN_safe hx fun x0 h0 => outB_safe (P := Ok (without m voidK)) ?_ fun _ h => h
      exact BldR.safe_bind valueExpr_safe fun _ hv => BldR.safe_pure ⟨has_without.2 ⟨h0.1, hv⟩, h0.2⟩
    · cases h
  · obtain ⟨x0, x1, x2, rfl, hc, h1, rfl⟩ := polyHeld_some h hx
    exact outR_safe (sh_array hc h1) fun _ h => h
  · obtain ⟨x0, x1, x2, rfl, hc, h1, rfl⟩ := polyHeld_some h hx
    exact outR_safe (sh_hashPattern hc h1) fun _ h => h
  · obtain ⟨x0, x1, x2, rfl, hc, h1, rfl⟩ := polyHeld_some h hx
    exact outM_safe (sh_associate hc h1) fun _ h => h
  · unfold polyMultiLhs at h
    split at h
    · split at h
      · next hs =>
        cases h
        exact withOLO_safe hx fun x0 x1 x2 h0 h1 h2 => outR_safe (sh_multiLhs_destr (h1.2 rfl) (h1.1.mono hs)) fun _ h => h
      · split at h
        · next hs =>
          cases h
          exact withOLO_safe hx fun x0 x1 x2 h0 h1 h2 => outR_safe (sh_multiLhs_items (h1.2 rfl) (h1.1.mono hs)) fun _ h => h
        · cases h
    · cases h
  · unfold polyFind at h
    split at h
    · split at h
      · next hs =>
        cases h
        exact withOLO_safe hx fun x0 x1 x2 h0 h1 h2 => outR_safe (sh_findPattern (h1.2 rfl) (h1.1.mono hs)) fun _ h => h
      · cases h
    · cases h
  · unfold polyArgs at h
    split at h
    · next no yes m ne no' yes' =>
      split at h
      · next hs =>
        cases h
        rw [Bool.and_eq_true] at hs
        refine withOLO_safe hx fun x0 x1 x2 h0 h1 h2 => outM_safe (sh_args ?_ (h1.1.mono hs.1)) fun r h => ⟨h.1, fun ho => h.2 ?_⟩
        · cases ne with
          | true => exact .inr (.inl (h1.2 rfl))
          | false =>
            cases x0 with
            | some => exact .inl rfl
            | none =>
              cases x2 with
              | none => exact .inr (.inr rfl)
              | some => rw [h0.1 rfl, h2.2 rfl] at hs; cases hs.2
        · cases ne with
          | true => exact .inr (.inl (h1.2 rfl))
          | false =>
            cases x0 with
            | some => exact .inl rfl
            | none =>
              cases x2 with
              | some => exact .inr (.inr rfl)
              | none => rw [h0.1 rfl, h2.1 rfl] at ho; cases ho
      · cases h
    · cases h
  · unfold polyArrayPattern at h
    split at h
    · next no yes m ne nt yt _ _ =>
      split at h
      · next hs =>
        cases h
        rw [Bool.and_eq_true] at hs
        refine withOLOO_safe hx fun x0 x1 x2 x3 h0 h1 h2 h3 => outR_safe (sh_arrayPattern (held_cond h0 h1 hs.1) (h1.1.mono hs.2)) fun r h => ?_
        show Ok _ r
        cases yt with
        | true => exact h.1
        | false =>
          refine h.2 ?_
          cases x2 with
          | none => rfl
          | some => cases h2.2 rfl
      · cases h
    · cases h
  · unfold polyCompstmt at h
    split at h
    · next m ne =>
      split at h
      · next hs =>
        cases h
        refine withL_safe hx fun x0 h0 => outR_safe (sh_compstmt hs h0.1) fun r h => ⟨h.1, fun ho => h.2 (h0.2 (by simpa using ho))⟩
      · cases h
    · cases h
  · unfold polyBegin at h
    split at h
    · next m opt =>
      split at h
      · next hs =>
        cases h
        rw [Bool.and_eq_true] at hs
        exact withTPT_safe hx fun x0 x1 x2 h1 => outp_safe (sh_begin_mlhs hs.2 (h1.2 (by simpa using hs.1)) h1.1 : Ok _ _)
      · split at h
        · next hs =>
          cases h
          exact withTPT_safe hx fun x0 x1 x2 h1 => outp_safe (sh_begin hs h1.1 : Ok _ _)
        · cases h
    · cases h
  · split at h
    · cases h; exact withN_safe hx fun x0 h0 => outM_safe (sh_accessible h0) fun _ h => h
    · cases h
  · unfold polyAssignable at h
    split at h
    · split at h
      · next hs => cases h; exact withN_safe hx fun x0 h0 => outB_safe (sh_assignable_var (Ok.mono h0 hs)) fun _ h => h
      · split at h
        · next hs => cases h; exact withN_safe hx fun x0 h0 => outB_safe (sh_assignable (Ok.mono h0 hs)) fun _ h => h
        · cases h
    · cases h
  · unfold polyProcargs at h
    split at h
    · next a x b y =>
      have ne : ∀ {x0 x1 : List Node}, (Abs.nodes a x).Has (.nodes x0) → (Abs.nodes b y).Has (.nodes x1) → (x || y) = true →
          x0 ≠ [] ∨ x1 ≠ [] := fun h0 h1 hc => by
        rw [Bool.or_eq_true] at hc
        exact hc.imp h0.2 h1.2
      split at h
      · next hs =>
        cases h
        have hs : ∀ {x0 x1 : List Node}, (Abs.nodes a x).Has (.nodes x0) → (Abs.nodes b y).Has (.nodes x1) → x1 ≠ [] ∨ x0 = [] := fun h0 h1 => by
          rw [Bool.or_eq_true, beq_iff_eq] at hs
          rcases hs with hs | hs
          · exact .inl (h1.2 hs)
          · subst hs; exact .inr (okl_zero h0.1)
        refine withLL_safe hx fun x0 x1 h0 h1 => outR_safe (sh_procargs h0.1 h1.1 ((hs h0 h1).imp id .inl)) fun r h => ?_
        exact ⟨h.2.2 (hs h0 h1), fun hc => h.2.1 (ne h0 h1 hc)⟩
      · split at h
        · next hs =>
          cases h
          refine withLL_safe hx fun x0 x1 h0 h1 => outR_safe (sh_procargs h0.1 h1.1 (.inr (.inr hs))) fun r h => ?_
          exact ⟨h.1, fun hc => h.2.1 (ne h0 h1 hc)⟩
        · cases h
    · cases h
  · split at h
    · obtain ⟨h1, h2, rfl⟩ := polySend_some h
      refine withNTTL_safe hx fun x0 x1 x2 x3 h0 h3 =>
        outR_safe (callMethod_safe (oko_some.2 (Ok.mono h0 h1)) (.inl rfl) (h3.1.mono h2)) fun r hr => sendK_has h3.1 hr
    · cases h
  · split at h
    · obtain ⟨h1, h2, rfl⟩ := polySend_some h
      refine withNTTTLT_safe hx fun x0 x1 x2 x3 x4 x5 h0 h4 =>
        outR_safe (callMethod_safe (oko_some.2 (Ok.mono h0 h1)) (.inl rfl) (h4.1.mono h2)) fun r hr => sendK_has h4.1 hr
    · cases h
  · split at h
    · obtain ⟨h1, h2, rfl⟩ := polySend_some h
      refine withNTTLT_safe hx fun x0 x1 x2 x3 x4 h0 h3 =>
        outR_safe (callMethod_safe (oko_some.2 (Ok.mono h0 h1)) (.inr ⟨rfl, rfl⟩) (h3.1.mono h2)) fun r hr => sendK_has h3.1 hr
    · cases h
  · split at h
    · obtain ⟨h2, rfl⟩ := polyCall_some h
      refine withTL_safe hx fun x0 x1 h1 =>
        outR_safe (callMethod_safe oko_none (.inl rfl) (h1.1.mono h2)) fun r hr => sendK_has h1.1 hr
    · cases h
  · split at h
    · obtain ⟨h2, rfl⟩ := polyCall_some h
      refine withTTLT_safe hx fun x0 x1 x2 x3 h1 =>
        outR_safe (callMethod_safe oko_none (.inl rfl) (h1.1.mono h2)) fun r hr => sendK_has h1.1 hr
    · cases h
  · unfold polyBlock at h
    split at h
    · split at h
      · next hs =>
        rw [Bool.and_eq_true] at hs
        split at h
        · next hc =>
          cases h
          exact withNTAPT_safe hx fun x0 x1 x2 x3 x4 h0 h2 h3 =>
            outB_safe (sh_block_callee (Ok.mono h0 hc) (ArgsOk.mono h2 hs.1) (h3.1.mono hs.2)) fun _ h => h
        · split at h
          · next hc =>
            cases h
            exact withNTAPT_safe hx fun x0 x1 x2 x3 x4 h0 h2 h3 =>
              outB_safe (sh_block_cmd (Ok.mono h0 hc) (ArgsOk.mono h2 hs.1) (h3.1.mono hs.2)) fun _ h => h
          · cases h
      · cases h
    · cases h
  · split at h
    · exact withTL_safe hx fun x0 x1 h1 => polyJump_safe h h1
    · cases h
  · split at h
    · exact withTTLT_safe hx fun x0 x1 x2 x3 h1 => polyJump_safe h h1
    · cases h
  · cases h

theorem fn_safe {ext : BldExt} {indent : Int} {f : BFn} {as : List Abs} {o : Abs} {xs : List Atom} (h : f.gives as = some o)
    (hx : HasL as xs) : BldR.Safe (f.Dedents indent xs) (applyFn ext indent f xs) o.Has := by
  unfold BFn.gives at h
  split at h
  · next hm =>
    split at h
    · next hl => cases h; exact mono_safe hm (hx.le hl)
    · cases h
  · exact poly_safe h hx

end Verif
