import Verif.Lemmas.LexDenotes
/-! Blanks and, where the lexer skips them, line ends before a token. -/
namespace Verif.Lexer
open Verif.Props (collapse Seq)

/-- States in which the end of a line is skipped. -/
def Skips (st : LexState) : Prop := st.isSome (EXPR_BEG ||| EXPR_CLASS ||| EXPR_FNAME ||| EXPR_DOT) = true ∧ st.isSome EXPR_LABELED = false

/-- A line end of one byte. -/
theorem Moved.newline {bs text : Bytes} {b0 b : Buffer} (h : Took bs 10 text b) (hm : Moved 10 b0 b) (hcr : 13 ∉ bs) : b.pcur = b0.pcur + 1 := by
  have h1 := hm.back
  have h2 := h.pos
  unfold Buffer.pbPos at h1
  split at h1
  · rename_i hc
    exfalso
    rw [h.at'.d] at hc
    exact hcr (List.mem_of_getElem? hc.2.2)
  · omega

theorem lexNewline_skip {ts sp : Bool} {s : Lexer} (h : Skips s.lexState) {Q : Next → Lexer → Prop} (hq : Q (.retry sp) { s with tokenSeen := ts }) :
    Wp (lexNewline ts sp) Q s := by
  unfold lexNewline
  refine Wp.bind (Wp.modS (Wp.bind (Wp.getS ?_)))
  dsimp only
  rw [h.1, h.2]
  refine Wp.ite (fun _ => ?_) fun e => absurd rfl e
  refine Wp.bind (Wp.getS ?_)
  exact Wp.ite (fun e => by simp at e) fun _ => Wp.pure hq

/-- Between tokens in state `st` the lexer skips `g` before `text`. -/
def SkipsTo (x : Ext) (bs : Bytes) (st : LexState) (g text : Bytes) : Prop :=
  ∀ (cmd ts : Bool) (Q : Tok → Lexer → Prop) (n : Nat) (sp : Bool) (s : Lexer), s.lexState = st → s.strterm = none → s.lvalStart = none → s.lvalEnd = none →
    g.length < n → Upcoming bs (g ++ text) s.buffer →
    (∀ n' b sp' tk cs, n ≤ n' + g.length → Upcoming bs text b → b.pcur = s.buffer.pcur + g.length → ((∀ c ∈ g, Blank c) → sp' = (sp || !g.isEmpty)) →
      Wp (yylexLoop x cmd ts n' sp') Q { s with buffer := b, tokenSeen := tk, comments := cs }) →
    Wp (yylexLoop x cmd ts n sp) Q s

/-- Before a token. -/
theorem SkipsTo.run {x : Ext} {bs g text : Bytes} {st : LexState} (h : SkipsTo x bs st g text) {cmd ts : Bool} {Q : Tok → Lexer → Prop} {n : Nat} {s : Lexer} (hs : s.lexState = st)
    (hst : s.strterm = none) (hls : s.lvalStart = none) (hle : s.lvalEnd = none) (hn : g.length < n) (hu : Upcoming bs (g ++ text) s.buffer)
    (hq : ∀ n b sp tk cs, 0 < n → Upcoming bs text b → b.pcur = s.buffer.pcur + g.length → ((∀ c ∈ g, Blank c) → sp = !g.isEmpty) →
      Wp (yylexLoop x cmd ts n sp) Q { s with buffer := b, tokenSeen := tk, comments := cs }) : Wp (yylexLoop x cmd ts n false) Q s :=
  h cmd ts Q n false s hs hst hls hle hn hu fun n' b sp tk cs h1 h2 h3 h4 => hq n' b sp tk cs (by omega) h2 h3 (by simpa using h4)

theorem SkipsTo.nil {x : Ext} {bs text : Bytes} {st : LexState} : SkipsTo x bs st [] text := by
  intro cmd ts Q n sp s _ _ _ _ _ hu hq
  exact hq n s.buffer sp s.tokenSeen s.comments (by simp) hu rfl (by simp)

theorem SkipsTo.trans {x : Ext} {bs g g' text : Bytes} {st : LexState} (h : SkipsTo x bs st g (g' ++ text)) (h' : SkipsTo x bs st g' text) : SkipsTo x bs st (g ++ g') text := by
  intro cmd ts Q n sp s hs hst hls hle hn hu hq
  rw [List.length_append] at hn hq
  refine h cmd ts Q n sp s hs hst hls hle (by omega) (by simpa using hu) fun n1 b1 sp1 tk1 cs1 h1 h2 h3 h4 => ?_
  refine h' cmd ts Q n1 sp1 { s with buffer := b1, tokenSeen := tk1, comments := cs1 } hs hst hls hle (by omega) h2 fun n2 b2 sp2 tk2 cs2 h5 h6 h7 h8 => ?_
  refine hq n2 b2 sp2 tk2 cs2 (by omega) h6 (by dsimp only at h7; omega) fun hb => ?_
  rw [h8 fun c hc => hb c (by simp [hc]), h4 fun c hc => hb c (by simp [hc])]
  cases g <;> cases g' <;> simp

/-- Blanks. -/
theorem SkipsTo.of {x : Ext} {bs text : Bytes} {st : LexState} {g : Bytes} (h : ∀ c ∈ g, Blank c) : SkipsTo x bs st g text := by
  induction g with
  | nil => exact .nil
  | cons c g ih =>
    refine SkipsTo.trans (g := [c]) ?_ (ih fun c hc => h c (by simp [hc]))
    intro cmd ts Q n sp s hs hst hls hle hn hu hq
    obtain ⟨n, rfl⟩ : ∃ k', n = k' + 1 := ⟨n - 1, by omega⟩
    have hc := h c (by simp)
    refine yylexLoop_char hu fun b h1 h2 _ => ?_
    refine Wp.bind ?_
    unfold dispatch
    refine Wp.ite (fun e => absurd e (by rcases hc with rfl | rfl | rfl | rfl <;> decide)) fun _ => ?_
    refine Wp.ite (fun e => absurd e (by rcases hc with rfl | rfl | rfl | rfl <;> decide)) fun _ => ?_
    refine Wp.ite (fun _ => Wp.pure ?_) fun e => absurd hc e
    exact hq n b true s.tokenSeen s.comments (Nat.le_refl _) h1.at' (h2.one (by rcases hc with rfl | rfl | rfl | rfl <;> decide)) fun _ => by simp

/-- A line end where it is skipped. -/
theorem SkipsTo.newline {x : Ext} {bs text : Bytes} {st : LexState} (h : Skips st) (hcr : 13 ∉ bs) : SkipsTo x bs st [10] text := by
  rintro cmd ts Q n sp s rfl hst hls hle hn hu hq
  obtain ⟨n, rfl⟩ : ∃ k', n = k' + 1 := ⟨n - 1, by omega⟩
  refine yylexLoop_char hu fun b h1 h2 _ => ?_
  refine Wp.bind ?_
  unfold dispatch
  repeat refine Wp.ite (fun e => absurd e (by decide)) fun _ => ?_
  refine Wp.ite (fun _ => ?_) fun e => absurd rfl e
  refine lexNewline_skip (s := { s with buffer := b }) h ?_
  exact hq n b sp ts s.comments (Nat.le_refl _) h1.at' (h2.newline h1 hcr) fun h => absurd (h 10 (by simp)) (by unfold Blank; decide)

end Verif.Lexer
