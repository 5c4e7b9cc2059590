import Verif.Lemmas.LexRemark
import Verif.Spec.Lines
import Verif.Props.Expansion
/-! Literals in quotes without interpolation, token by token, with their exact positions. -/
namespace Verif.Lexer
open Verif.Props (collapse Seq Reads content_ne delim_squote expands_double)
open QuoteSpec EscapeSpec LineSpec

theorem collapse_same {w : Bytes} (h : 10 ∉ collapse w) : collapse w = w := by
  fun_induction collapse w with
  | case1 rest ih => simp at h
  | case2 c rest hne ih =>
    rw [ih fun e => h (by simp [e])]
  | case3 => rfl

/-- The cursor stands where the rest of the source starts. -/
theorem Upcoming.left {bs text : Bytes} {b : Buffer} (h : Upcoming bs text b) (hcr : 10 ∈ text → 13 ∉ bs) : bs.drop b.pcur = text ∧ b.pcur + text.length = bs.length := by
  have h1 : collapse (bs.drop b.pcur) = bs.drop b.pcur := by
    by_cases h10 : 10 ∈ text
    · exact collapse_plain fun e => hcr h10 (List.mem_of_mem_drop e)
    · exact collapse_same (by rw [h.txt]; exact h10)
  have h2 := h.le
  have h3 : bs.drop b.pcur = text := by rw [← h1, h.txt]
  refine ⟨h3, ?_⟩
  rw [← h3, List.length_drop]
  omega

theorem slice_last {bs rest : Bytes} {p : Nat} {c : UInt8} (h : bs.drop p = c :: rest) : Spec.slice bs p (p + 1) = [c] := by
  have h1 : bs[p]? = some c := by rw [← List.head?_drop, h]; rfl
  rw [Verif.slice_head (c := c) (by omega) h1, Verif.slice_empty]

/-- The quote that a literal starts with. -/
theorem yylex_quote {x : Ext} {bs blanks text : Bytes} {s : Lexer} {c : UInt8} (hc : c = asc '\'' ∨ c = asc '"') (h : Upcoming bs (blanks ++ c :: text) s.buffer)
    (hb : SkipsTo x bs s.lexState blanks (c :: text)) (hst : s.strterm = none) (hls : s.lvalStart = none) (hle : s.lvalEnd = none) :
    Wp (yylex x) (fun t s' => t = ⟨.tSTRING_BEG, [c], ⟨s.buffer.pcur + blanks.length, s.buffer.pcur + blanks.length + 1⟩⟩ ∧
      Lit bs ((if c = asc '\'' then singleQuoted else doubleQuoted) (s.lexState.isLabelPossible s.commandStart)) text s' ∧ s'.buffer.pcur = s.buffer.pcur + blanks.length + 1 ∧
      s'.diagnostics = s.diagnostics) s := by
  refine yylex_code hst ?_
  have hlen : (blanks ++ c :: text).length ≤ bs.length := by
    rw [← h.txt]
    exact Nat.le_trans (collapse_length _ (Nat.le_refl _)) (by simp)
  refine hb.run (s := { s with lval := none, commandStart := false, tokenSeen := true }) rfl hst hls hle
    (by rw [h.d]; simp only [List.length_append, List.length_cons] at hlen; omega) h fun n b sp tk cs hn h1 hp _ => ?_
  obtain ⟨n, rfl⟩ : ∃ k', n = k' + 1 := ⟨n - 1, by omega⟩
  refine yylexLoop_char (s := { s with lval := none, commandStart := false, tokenSeen := tk, comments := cs, buffer := b }) h1 fun b1 h2 hm ht => Wp.bind ?_
  have hone := hm.one (by rcases hc with rfl | rfl <;> decide)
  dsimp only at hone hp
  have hlast := h2.last
  have hle2 := h2.at'.le
  have hsl : Spec.slice bs (b1.pcur - 1) b1.pcur = [c] := by
    rw [Verif.slice_head (c := c) (by omega) hlast, show b1.pcur - 1 + 1 = b1.pcur by omega, Verif.slice_empty]
  rcases hc with rfl | rfl
  · unfold dispatch
    repeat refine Wp.ite (fun e => absurd e (by decide)) fun _ => ?_
    refine Wp.ite (fun _ => ?_) fun e => absurd rfl e
    unfold lexQuote
    refine Wp.bind (Wp.getS (Wp.bind (Wp.modS (Wp.bind (Wp.pcurSub h2.pos (Wp.bind ⟨_, _, rfl, Wp.pure (Wp.pure ?_)⟩))))))
    refine ⟨by decide, [asc '\''], .inr ⟨rfl, ?_, ?_, ?_⟩, ?_, ⟨h2.at'.bsame ⟨⟨rfl, rfl, rfl, rfl, rfl, rfl, rfl, rfl⟩, rfl, rfl⟩, rfl, rfl, rfl⟩, ?_, rfl⟩
    · simp only [tBegin, tEnd, hls, hle, Option.getD]
      show b1.pcur - 1 ≤ b1.pcur
      omega
    · simp only [tEnd, hle, Option.getD]
      show b1.pcur ≤ b1.d.bytes.length
      rw [h2.at'.d]; exact hle2
    · simp only [tBegin, tEnd, hls, hle, Option.getD]
      show _ = Spec.slice b1.d.bytes (b1.pcur - 1) b1.pcur
      rw [h2.at'.d, hsl]
    · simp only [tBegin, tEnd, hls, hle, Option.getD]
      show Token.mk _ _ ⟨b1.pcur - 1, b1.pcur⟩ = _
      rw [show b1.pcur - 1 = s.buffer.pcur + blanks.length by omega, show b1.pcur = s.buffer.pcur + blanks.length + 1 by omega]
    · show b1.pcur = _
      omega
  · unfold dispatch
    repeat refine Wp.ite (fun e => absurd e (by decide)) fun _ => ?_
    refine Wp.ite (fun _ => ?_) fun e => absurd rfl e
    unfold lexQuote
    refine Wp.bind (Wp.getS (Wp.bind (Wp.modS (Wp.bind (Wp.pcurSub h2.pos (Wp.bind ⟨_, _, rfl, Wp.pure (Wp.pure ?_)⟩))))))
    refine ⟨by decide, [asc '"'], .inr ⟨rfl, ?_, ?_, ?_⟩, ?_, ⟨h2.at'.bsame ⟨⟨rfl, rfl, rfl, rfl, rfl, rfl, rfl, rfl⟩, rfl, rfl⟩, rfl, rfl, rfl⟩, ?_, rfl⟩
    · simp only [tBegin, tEnd, hls, hle, Option.getD]
      show b1.pcur - 1 ≤ b1.pcur
      omega
    · simp only [tEnd, hle, Option.getD]
      show b1.pcur ≤ b1.d.bytes.length
      rw [h2.at'.d]; exact hle2
    · simp only [tBegin, tEnd, hls, hle, Option.getD]
      show _ = Spec.slice b1.d.bytes (b1.pcur - 1) b1.pcur
      rw [h2.at'.d, hsl]
    · simp only [tBegin, tEnd, hls, hle, Option.getD]
      show Token.mk _ _ ⟨b1.pcur - 1, b1.pcur⟩ = _
      rw [show b1.pcur - 1 = s.buffer.pcur + blanks.length by omega, show b1.pcur = s.buffer.pcur + blanks.length + 1 by omega]
    · show b1.pcur = _
      omega

/-- The end of a literal, with its position. -/
theorem read_end {x : Ext} {bs rest : Bytes} {q : StringLiteral} {s : Lexer} (hl : Lit bs q (q.term :: rest) s) (hcr : 10 ∈ q.term :: rest → 13 ∉ bs)
    (hr : hasF q.func STR_FUNC_REGEXP = false) (hnl : q.term ≠ 10) (ht : hasF q.func STR_FUNC_TERM = false) (hli : hasF q.func STR_FUNC_LIST = false)
    (hw : hasF q.func STR_FUNC_QWORDS = false) (hn : q.nest = 0) (hlab : (hasF q.func STR_FUNC_LABEL && colonNext rest) = false) :
    ∃ s', yylex x s = .ok (⟨.tSTRING_END, [q.term], ⟨s.buffer.pcur, s.buffer.pcur + 1⟩⟩, s') ∧ Closed bs rest s s' ∧ s'.lexState = EXPR_END ∧ s'.buffer.pcur = s.buffer.pcur + 1 := by
  obtain ⟨t, s', e, h1, h2, h3⟩ := yylex_close (x := x) hl hr hnl ht hli hw hn hlab
  obtain ⟨k1, k2⟩ := hl.at'.left hcr
  obtain ⟨-, k4⟩ := h2.at'.left fun h => hcr (by simp [h])
  have k5 : s'.buffer.pcur = s.buffer.pcur + 1 := by simp only [List.length_cons] at k2; omega
  refine ⟨s', ?_, h2, h3, k5⟩
  rw [e, h1, k5, slice_last k1]

theorem read_literal {x : Ext} {bs body rest v : Bytes} {c : UInt8} {l : Bool} {s : Lexer}
    (hl : Lit bs ((if c = asc '\'' then singleQuoted else doubleQuoted) l) (body ++ c :: rest) s) (hcr : 10 ∈ body ++ c :: rest → 13 ∉ bs) (hb : Body c body v rest)
    (hcol : colonNext rest = false) :
    ∃ s', Reads x s (litTokens c body v s.buffer.pcur) s' ∧ Closed bs rest s s' ∧ s'.lexState = EXPR_END ∧ s'.buffer.pcur = s.buffer.pcur + body.length + 1 := by
  have hcr' : 10 ∈ c :: rest → 13 ∉ bs := fun h => hcr (List.mem_append_right _ h)
  -- the end
  have fin : ∀ s1 : Lexer, Lit bs ((if c = asc '\'' then singleQuoted else doubleQuoted) l) (c :: rest) s1 →
      ∃ s', yylex x s1 = .ok (⟨.tSTRING_END, [c], ⟨s1.buffer.pcur, s1.buffer.pcur + 1⟩⟩, s') ∧ Closed bs rest s1 s' ∧ s'.lexState = EXPR_END ∧ s'.buffer.pcur = s1.buffer.pcur + 1 := by
    intro s1 h1
    rcases hb with ⟨rfl, -⟩ | ⟨rfl, -⟩
    · have hf := delim_squote l
      exact read_end (q := singleQuoted l) h1 hcr' hf.r hf.nl (by cases l <;> decide) (by cases l <;> decide) (by cases l <;> decide) rfl (by rw [hcol, Bool.and_false])
    · have hf := expands_double l
      exact read_end (q := doubleQuoted l) h1 hcr' hf.r hf.nl (by cases l <;> decide) (by cases l <;> decide) hf.w rfl (by rw [hcol, Bool.and_false])
  cases body with
  | nil =>
    obtain ⟨s', e, h1, h2, h3⟩ := fin s hl
    exact ⟨s', .cons e .nil, h1, h2, by simpa using h3⟩
  | cons d body =>
    obtain ⟨-, k1⟩ := hl.at'.left hcr
    have next : ∀ s1 : Lexer, yylex x s = .ok (⟨.tSTRING_CONTENT, v, ⟨s.buffer.pcur, s1.buffer.pcur⟩⟩, s1) → Lit bs ((if c = asc '\'' then singleQuoted else doubleQuoted) l) (c :: rest) s1 →
        s1.diagnostics = s.diagnostics →
        ∃ s', Reads x s (litTokens c (d :: body) v s.buffer.pcur) s' ∧ Closed bs rest s s' ∧ s'.lexState = EXPR_END ∧ s'.buffer.pcur = s.buffer.pcur + (d :: body).length + 1 := by
      intro s1 e h1 hd
      obtain ⟨s', e', h2, h3, h4⟩ := fin s1 h1
      obtain ⟨-, k2⟩ := h1.at'.left hcr'
      have k3 : s1.buffer.pcur = s.buffer.pcur + (d :: body).length := by simp only [List.length_append, List.length_cons] at k1 k2 ⊢; omega
      rw [k3] at e e' h4
      exact ⟨s', .cons e (.cons e' .nil), ⟨h2.at', h2.st, h2.ls, h2.le, h2.diag.trans hd⟩, h3, h4⟩
    rcases hb with ⟨rfl, hc, hp⟩ | ⟨rfl, hc⟩
    · by_cases hd : d = asc '\''
      · subst hd
        exfalso
        rw [List.cons_append, content_cons, if_neg (by simp), if_pos rfl, if_pos rfl] at hc
        simp only [Option.some.injEq, Prod.mk.injEq, true_and, List.cons.injEq] at hc
        have := congrArg List.length hc.2
        simp at this
        omega
      · have hf := delim_squote l
        obtain ⟨t, s1, e, h1, h2, h3, -⟩ := yylex_quoted (x := x) (q := singleQuoted l) hl hf (by cases l <;> decide) (by cases l <;> decide) (fun h => hd h.1)
          (by rw [show hasF (singleQuoted l).func STR_FUNC_QWORDS = false by cases l <;> decide]; simp) (v := v) (n := 0) (rest := asc '\'' :: rest) (by
            rw [show hasF (singleQuoted l).func STR_FUNC_QWORDS = false by cases l <;> decide]; exact hc) (fun used hu => by
            have hu : (d :: body) ++ asc '\'' :: rest = used ++ asc '\'' :: rest := hu
            rw [← List.append_cancel_right hu]; exact hp)
        rw [h1] at e
        exact next s1 e h2 h3
    · by_cases hd : d = asc '"'
      · subst hd
        exfalso
        generalize hfull : asc '"' :: body ++ asc '"' :: rest = full at hc
        generalize hr : asc '"' :: rest = r at hc
        cases hc with
        | stop =>
          have := congrArg List.length hfull
          rw [← hr] at this
          simp at this
          omega
        | up he => cases he
        | plain _ h =>
          simp only [List.cons_append, List.cons.injEq] at hfull
          exact h hfull.1.symm
        | escape =>
          simp only [List.cons_append, List.cons.injEq] at hfull
          exact absurd hfull.1 (by decide)
      · have hf := expands_double l
        obtain ⟨t, s1, e, h1, h2, h3, -⟩ := yylex_expanded (x := x) (q := doubleQuoted l) hl hf (by cases l <;> decide) (by cases l <;> decide) rfl hd hc (by simp)
        rw [h1] at e
        exact next s1 e h2 h3

end Verif.Lexer
