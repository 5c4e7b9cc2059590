import Verif.Lemmas.Buffer
/-! The reader right after construction, and the order in which it delivers the bytes. -/
namespace Verif
open Spec

/-- A buffer that has just been constructed. -/
structure Fresh (bs : Bytes) (dec : Option DecoderFn) (b : Buffer) : Prop where
  good : Good b
  bytes : b.d.bytes = bs
  decoder : b.input.decoder = dec
  lines : b.lineCount = 1
  lastline : b.lastline = 0
  nextline : b.nextline = 0
  eofp : b.eofp = false
  pos : b.pcur = b.pbeg
  ptok : b.ptok = 0
  hli : b.heredocLineIndent = 0
  hi : b.heredocIndent = 0
  hend : b.heredocEnd = 0
  bom : (b.pbeg = 0 ∧ ¬ [0xef, 0xbb, 0xbf] <+: bs) ∨ (b.pbeg = 3 ∧ [0xef, 0xbb, 0xbf] <+: bs)

theorem bom_iff (bs : Bytes) : [0xef, 0xbb, 0xbf] <+: bs ↔
    bs[0]? = some 0xef ∧ bs[1]? = some 0xbb ∧ bs[2]? = some 0xbf := by
  match bs with
  | [] => simp
  | [a] => simp [List.cons_prefix_cons]
  | [a, b] => simp [List.cons_prefix_cons]
  | a :: b :: c :: r => simp [List.cons_prefix_cons, eq_comm]

/-- The first line is loaded. -/
theorem first_load (i : Input) (ht : i.decoded.Tabled) :
    ∃ b1, ({ input := i } : Buffer).nextlineFn = .ok (true, b1) ∧ Good b1 ∧ b1.input = i ∧ b1.lineCount = 1 ∧
      b1.lastline = 0 ∧ b1.nextline = 0 ∧ b1.eofp = false ∧ b1.pcur = 0 ∧ b1.pbeg = 0 ∧ b1.ptok = 0 ∧
      b1.heredocLineIndent = 0 ∧ b1.heredocIndent = 0 ∧ b1.heredocEnd = 0 := by
  have hpos := ht.pos
  obtain ⟨l, hl, hs, hst⟩ := ht.lineAt hpos
  have hl' : i.lineAt 0 = .ok l := hl
  have h0 : l.start = 0 := by rw [hs]; exact ht.first
  refine ⟨_, by
    unfold Buffer.nextlineFn Buffer.getline Input.linesCount Buffer.loadLine Buffer.tokenFlush Buffer.setPtok
    simp only [Nat.lt_irrefl, if_false, if_true, gt_iff_lt, bind, Except.bind, pure, Except.pure, Bool.false_eq_true, hpos, hl']
    rfl, ?_, rfl, rfl, rfl, rfl, rfl, h0, h0, h0, rfl, rfl, rfl⟩
  exact {
    tab := ht, lc := hpos, ll := Nat.zero_lt_one, nl := Nat.zero_lt_one, nl2 := fun h => absurd rfl h,
    stop := hst, start := .inl hs, lo := Nat.le_refl _
    hi := by dsimp only; rw [hs, hst]; exact ht.start_le hpos
    ns := fun h => absurd h (Nat.lt_irrefl _) }

/-- Construction never panics. -/
theorem new_fresh (name : String) (bs : Bytes) (dec : Option DecoderFn) :
    ∃ b, Buffer.new name bs dec = .ok b ∧ Fresh bs dec b := by
  have ht : ((Input.new name dec).updateBytes bs).decoded.Tabled := updateBytes_tabled _ _
  obtain ⟨b1, e1, hg, hi, hlc, hll, hnl, he, hp, hpb, hpt, hhli, hhi, hhe⟩ := first_load _ ht
  have hby : b1.d.bytes = bs := by rw [Buffer.d, hi]; rfl
  have hdec : b1.input.decoder = dec := by rw [hi]; rfl
  have hnext : ({ input := (Input.new name dec).updateBytes bs } : Buffer).nextc = b1.readByte := by
    unfold Buffer.nextc
    rw [if_pos (.inl rfl), e1]
    rfl
  have base : ∀ sb, ¬ [0xef, 0xbb, 0xbf] <+: bs → Fresh bs dec { b1 with hasShebang := sb, pcur := 0 } := by
    intro sb hb
    exact {
      good := { hg with
        lo := by have := hg.lo; dsimp only; omega
        hi := Nat.zero_le _
        ns := by intro h; exact absurd h (by dsimp only; omega) }
      bytes := hby, decoder := hdec, lines := hlc, lastline := hll, nextline := hnl, eofp := he, pos := hpb.symm,
      ptok := hpt, hli := hhli, hi := hhi, hend := hhe, bom := .inl ⟨hpb, hb⟩ }
  unfold Buffer.new Buffer.prepare
  rw [hnext]
  by_cases hlt : b1.pcur < b1.pend
  · obtain ⟨ch, b2, e2, hr⟩ := readByte_in hg he hlt
    rw [e2]
    simp only [bind, Except.bind, pure, Except.pure]
    have h0 : 0 < b2.pcur := by have := hr.lt; omega
    have hback : b2.pbPos = 0 := by rw [hr.back, hp]
    have heq := hr.eq
    have hbyte : ch ≠ 10 → b2.pcur = 1 ∧ bs[0]? = some ch := by
      intro h; have := hr.byte h; rw [hp, hby] at this; exact this
    have hpush : ∀ sb, ({ b2 with hasShebang := sb } : Buffer).pushback (some ch) = .ok { b1 with hasShebang := sb, pcur := 0 } := by
      intro sb
      unfold Buffer.pushback
      dsimp only
      rw [pushbackByte_eq _ (by exact h0)]
      have : ({ b2 with hasShebang := sb } : Buffer).pbPos = 0 := hback
      rw [this, heq]
    have hpush' : b2.pushback (some ch) = .ok { b1 with pcur := 0 } := by
      have := hpush b2.hasShebang
      rw [show ({ b2 with hasShebang := b2.hasShebang } : Buffer) = b2 from rfl] at this
      rw [this, show b2.hasShebang = b1.hasShebang by rw [heq]]
    by_cases h35 : ch = asc '#'
    · have hnb : ¬ [0xef, 0xbb, 0xbf] <+: bs := by
        rw [bom_iff]; rintro ⟨h, -⟩
        rw [(hbyte (by rw [h35]; decide)).2, h35] at h
        exact absurd h (by decide)
      simp only [h35, if_true]
      rw [← h35]
      have hpk : ∃ r, b2.peek (asc '!') = .ok r := by
        unfold Buffer.peek Buffer.peekN
        by_cases hn : b2.isEolN 0 = true
        · exact ⟨false, by rw [if_pos hn]⟩
        · rw [if_neg hn]
          obtain ⟨c, hc⟩ := hr.good.byte (j := b2.pcur + 0) (by simpa [Buffer.isEolN] using hn)
          simp only [Input.uncheckedByteAt]; rw [hc]
          exact ⟨_, rfl⟩
      obtain ⟨r, hpk⟩ := hpk
      rw [hpk]; dsimp only
      cases r with
      | true => exact ⟨_, hpush true, base true hnb⟩
      | false => exact ⟨_, hpush', base _ hnb⟩
    · simp only [h35, if_false]
      by_cases hef : ch = 0xef
      · simp only [hef, if_true]
        rw [← hef]
        obtain ⟨hp1, hb0⟩ := hbyte (by rw [hef]; decide)
        have hle : b2.pcur ≤ b2.pend := hr.good.hi
        rw [csub_of_le hle]
        dsimp only
        have hby2 : b2.d.bytes = bs := by rw [heq]; exact hby
        have hat : ∀ j, b2.byteAt j = bs[j]? := by intro j; rw [← hby2]; rfl
        by_cases hbom : b2.pend - b2.pcur ≥ 2 ∧ b2.byteAt b2.pcur = some 0xbb ∧ b2.byteAt (b2.pcur + 1) = some 0xbf
        · rw [if_pos hbom]
          rw [hat, hat, hp1] at hbom
          refine ⟨_, rfl, ?_⟩
          have hg2 := hr.good
          exact {
            good := { hg2 with
              start := .inr ⟨by rw [show b2.lastline = 0 by rw [heq]; exact hll]; exact hg2.tab.first, by dsimp only; omega⟩
              lo := Nat.le_refl _
              hi := by dsimp only; omega
              ns := by intro h; exact absurd h (Nat.lt_irrefl _) }
            bytes := hby2
            decoder := by rw [heq]; exact hdec
            lines := by rw [heq]; exact hlc
            lastline := by rw [heq]; exact hll
            nextline := by rw [heq]; exact hnl
            eofp := by rw [heq]; exact he
            pos := rfl
            ptok := by rw [heq]; exact hpt
            hli := by rw [heq]; exact hhli
            hi := by rw [heq]; exact hhi
            hend := by rw [heq]; exact hhe
            bom := .inr ⟨by dsimp only; omega, (bom_iff bs).2 ⟨by rw [hb0, hef], hbom.2.1, hbom.2.2⟩⟩ }
        · rw [if_neg hbom]
          refine ⟨_, hpush', base _ ?_⟩
          rw [bom_iff]; rintro ⟨h1, h2, h3⟩
          apply hbom
          rw [hat, hat, hp1]
          refine ⟨?_, h2, h3⟩
          have hl3 : 2 < bs.length := by
            by_contra hc
            rw [List.getElem?_eq_none (by omega)] at h3; simp at h3
          have := hr.good.span (i := 0) (k := 3) (by rw [heq]; dsimp only; omega) (by omega) (by rw [hby2]; omega)
            (by
              intro j _ hj
              rw [hby2]
              rcases (show j = 0 ∨ j = 1 ∨ j = 2 by omega) with rfl | rfl | rfl
              · rw [h1]; decide
              · rw [h2]; decide
              · rw [h3]; decide)
          omega
      · simp only [hef, if_false]
        refine ⟨_, hpush', base _ ?_⟩
        rw [bom_iff]; rintro ⟨h1, -⟩
        by_cases h10 : ch = 10
        · have hl := (hr.lf h10)
          have h2 := hr.eq
          by_cases hp2 : b2.pbPos = b2.pcur - 1
          · have : b2.pcur = 1 := by omega
            rw [this, hby, h1] at hl
            exact absurd hl.2 (by decide)
          · unfold Buffer.pbPos at hp2 hback
            split at hback
            · rename_i hx
              have : b2.pcur = 2 := by omega
              rw [this] at hx
              have h3 := hx.2.2
              rw [show b2.d.bytes = bs from by rw [heq]; exact hby] at h3
              simp only [Nat.reduceSub] at h3
              rw [h1] at h3
              exact absurd h3 (by decide)
            · rename_i hx; rw [if_neg hx] at hp2; exact absurd rfl hp2
        · have := (hbyte h10).2
          rw [h1] at this
          exact hef (by simpa using this.symm)
  · have hpe : b1.pcur = b1.pend := by have := hg.hi; omega
    have hnil : bs = [] := by
      by_cases e : b1.lastline + 1 < b1.d.lines.length
      · have h1 := hg.tab.nonempty e
        have := hg.stop; rcases hg.start with h | h <;> omega
      · have h3 := hg.tab.last_stop
        rw [show b1.d.lines.length - 1 = b1.lastline by have := hg.llen; omega, ← hg.stop, hby] at h3
        exact List.eq_nil_of_length_eq_zero (by omega)
    have hrd : b1.readByte = .ok (none, b1) := by
      unfold Buffer.readByte Input.byteAt
      rw [show b1.input.decoded.bytes = [] by rw [← hnil]; exact hby]
      rfl
    rw [hrd]
    refine ⟨_, rfl, ?_⟩
    have := base b1.hasShebang (by rw [hnil]; simp)
    rw [← hp] at this
    exact this

end Verif
