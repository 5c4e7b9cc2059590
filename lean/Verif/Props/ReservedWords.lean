import Verif.Lemmas.ReservedWords
/-! C18: reserved-word lookup. -/
namespace Verif

/-- Spec: the keywords of Ruby as documented, with the two names a modifier-capable keyword has
(<https://docs.ruby-lang.org>, keywords: 41 words). -/
def rubyKeywords : List String :=
  ["__ENCODING__", "__LINE__", "__FILE__", "BEGIN", "END", "alias", "and", "begin", "break", "case", "class", "def",
   "defined?", "do", "else", "elsif", "end", "ensure", "false", "for", "if", "in", "module", "next", "nil", "not", "or",
   "redo", "rescue", "retry", "return", "self", "super", "then", "true", "undef", "unless", "until", "when", "while",
   "yield"]

/-- C18: for every byte string the lookup ends without panicking, and it finds a word exactly when the
declared table has a word of that name; that word is then the (only) table entry of that name. -/
theorem C18_lookup (tok : Bytes) :
    ∃ r, reservedWord tok = .ok r ∧
      ∀ w, r = some w ↔ (w ∈ reservedWordsList ∧ w.name = tok) := by
  obtain ⟨hs, hsub, hin, hnd⟩ := reservedBuckets_facts
  have huniq : ∀ w w', w ∈ reservedWordsList → w' ∈ reservedWordsList → w.name = w'.name → w = w' :=
    fun w w' h h' e => List.inj_on_of_nodup_map hnd h h' e
  unfold reservedWord
  cases hb : reservedBuckets[tok.length]? with
  | none =>
    refine ⟨none, rfl, ?_⟩
    intro w
    simp only [reduceCtorEq, false_iff, not_and]
    intro hw hn
    obtain ⟨b, h1, _⟩ := hin w hw
    rw [hn, hb] at h1
    cases h1
  | some b =>
    have hbm : b ∈ reservedBuckets := List.mem_of_getElem? hb
    rcases binarySearch_spec tok b (hs b hbm) with ⟨i, w, h1, h2, h3⟩ | ⟨h1, h2⟩
    · refine ⟨some w, by simp [h1, bind, Except.bind, h2, pure, Except.pure], ?_⟩
      have hwm : w ∈ reservedWordsList := hsub b hbm w (List.mem_of_getElem? h2)
      intro w'
      constructor
      · rintro ⟨⟩
        exact ⟨hwm, h3⟩
      · rintro ⟨h4, h5⟩
        rw [huniq w w' hwm h4 (h3.trans h5.symm)]
    · refine ⟨none, by simp [h1, bind, Except.bind, pure, Except.pure], ?_⟩
      intro w
      simp only [reduceCtorEq, false_iff, not_and]
      intro hw hn
      obtain ⟨b', h3, h4⟩ := hin w hw
      rw [hn, hb] at h3
      cases h3
      exact h2 w h4 hn

/-- C18: the names found are exactly Ruby's keywords. -/
theorem C18_keywords (tok : Bytes) :
    (∃ w, reservedWord tok = .ok (some w)) ↔ ∃ s ∈ rubyKeywords, tok = ascs s := by
  obtain ⟨r, hr, hspec⟩ := C18_lookup tok
  have h1 : ∀ w ∈ reservedWordsList, ∃ s ∈ rubyKeywords, w.name = ascs s := by decide +kernel
  have h2 : ∀ s ∈ rubyKeywords, ∃ w ∈ reservedWordsList, w.name = ascs s := by decide +kernel
  constructor
  · rintro ⟨w, hw⟩
    rw [hr] at hw
    cases hw
    obtain ⟨hm, hn⟩ := (hspec w).mp rfl
    rw [← hn]
    exact h1 w hm
  · rintro ⟨s, hs, rfl⟩
    obtain ⟨w, hm, hn⟩ := h2 s hs
    exact ⟨w, by rw [hr, (hspec w).mpr ⟨hm, hn⟩]⟩

/-- C18: of the keywords exactly `if`, `unless`, `while`, `until`, `rescue` have a separate modifier kind. -/
theorem C18_modifiers (tok : Bytes) (w : ReservedWord) (h : reservedWord tok = .ok (some w)) :
    w.id ≠ w.modifierId ↔
      tok ∈ [ascs "if", ascs "unless", ascs "while", ascs "until", ascs "rescue"] := by
  obtain ⟨r, hr, hspec⟩ := C18_lookup tok
  rw [hr] at h
  cases h
  obtain ⟨hm, rfl⟩ := (hspec w).mp rfl
  exact (by decide +kernel : ∀ w ∈ reservedWordsList, w.id ≠ w.modifierId ↔
      w.name ∈ [ascs "if", ascs "unless", ascs "while", ascs "until", ascs "rescue"]) w hm

/-- C18: different keywords get different token kinds. -/
theorem C18_distinct (a b : Bytes) (w w' : ReservedWord) (h : reservedWord a = .ok (some w))
    (h' : reservedWord b = .ok (some w')) (hid : w.id = w'.id) : a = b := by
  obtain ⟨r, hr, hspec⟩ := C18_lookup a
  obtain ⟨r', hr', hspec'⟩ := C18_lookup b
  rw [hr] at h; cases h
  rw [hr'] at h'; cases h'
  obtain ⟨hm, rfl⟩ := (hspec w).mp rfl
  obtain ⟨hm', rfl⟩ := (hspec' w').mp rfl
  have hnd : (reservedWordsList.map (·.id)).Nodup := by decide +kernel
  rw [List.inj_on_of_nodup_map hnd hm hm' hid]

example : reservedWord (ascs "unless") = .ok (some ⟨ascs "unless", .kUNLESS, .kUNLESS_MOD, EXPR_VALUE⟩) := by
  decide +kernel
example : reservedWord (ascs "Unless") = .ok none := by decide +kernel
example : reservedWord [] = .ok none := by decide +kernel

end Verif
