import Verif.Proofs.Dict

/-! Well-formedness of the language tables, checked by the kernel for the five supported languages. -/

namespace NumberParser

/-- No key of `a` is a key of `b`. -/
def disjCheck (a b : Dict) : Bool := a.all (fun e => !b.mem e.1)

def isPow10 (bound : Nat) (v : Nat) : Bool := (List.range bound).any (fun k => v == 10 ^ (k + 2))

/-- The comparison form of a token: lower case, accents stripped (parser.py:196, 385) -/
def norm (t : PyStr) : PyStr := stripAccents (lower t)

/-- One key of `all_numbers`: not blank, not a skip token, not a sentence separator, in comparison form,
and left alone by the ordinal conversion. -/
def keyCheck (ld : LangData) (k : PyStr) : Bool :=
  !blank k && !isSkipToken k ld && !SENTENCE_SEPARATORS.elem k && norm k == k
    && applyCardinalConversion k ld == k

def skipCheck (ld : LangData) (k : PyStr) : Bool :=
  !blank k && !SENTENCE_SEPARATORS.elem k && norm k == k && isNumberToken k ld == none && !ld.allNumbers.mem k

def tableCheck (ld : LangData) : Bool :=
  disjCheck ld.unitNumbers ld.directNumbers && disjCheck ld.unitNumbers ld.tens
  && disjCheck ld.unitNumbers ld.hundreds && disjCheck ld.unitNumbers ld.bigPowersOfTen
  && disjCheck ld.directNumbers ld.tens && disjCheck ld.directNumbers ld.hundreds
  && disjCheck ld.directNumbers ld.bigPowersOfTen
  && disjCheck ld.tens ld.hundreds && disjCheck ld.tens ld.bigPowersOfTen
  && disjCheck ld.hundreds ld.bigPowersOfTen
  && ld.unitNumbers.all (fun e => e.2 ≤ 9)
  && ld.directNumbers.all (fun e => 10 ≤ e.2 && e.2 ≤ 99)
  && ld.tens.all (fun e => e.2 % 10 == 0 && 20 ≤ e.2 && e.2 ≤ 90)
  && ld.hundreds.all (fun e => e.2 % 100 == 0 && 100 ≤ e.2 && e.2 ≤ 900)
  && ld.bigPowersOfTen.all (fun e => isPow10 599 e.2)

def keysCheck (ld : LangData) : Bool :=
  ld.unitNumbers.all (fun e => keyCheck ld e.1) && ld.directNumbers.all (fun e => keyCheck ld e.1)
  && ld.tens.all (fun e => keyCheck ld e.1) && ld.hundreds.all (fun e => keyCheck ld e.1)
  && ld.bigPowersOfTen.all (fun e => keyCheck ld e.1)
  && ld.skipTokens.all (skipCheck ld)

/-- No word is in two tables. -/
structure LangData.Disjoint (ld : LangData) : Prop where
  ud : ∀ t, ld.unitAndDirectNumbers.get? t = (ld.directNumbers.get? t).or (ld.unitNumbers.get? t)
  all : ∀ t, ld.allNumbers.mem t =
    (ld.unitNumbers.mem t || ld.directNumbers.mem t || ld.tens.mem t || ld.hundreds.mem t || ld.bigPowersOfTen.mem t)
  unit_direct : ∀ t, ld.unitNumbers.mem t → ld.directNumbers.get? t = none
  unit_tens : ∀ t, ld.unitNumbers.mem t → ld.tens.get? t = none
  unit_hund : ∀ t, ld.unitNumbers.mem t → ld.hundreds.get? t = none
  unit_big : ∀ t, ld.unitNumbers.mem t → ld.bigPowersOfTen.get? t = none
  direct_tens : ∀ t, ld.directNumbers.mem t → ld.tens.get? t = none
  direct_hund : ∀ t, ld.directNumbers.mem t → ld.hundreds.get? t = none
  direct_big : ∀ t, ld.directNumbers.mem t → ld.bigPowersOfTen.get? t = none
  tens_hund : ∀ t, ld.tens.mem t → ld.hundreds.get? t = none
  tens_big : ∀ t, ld.tens.mem t → ld.bigPowersOfTen.get? t = none
  hund_big : ∀ t, ld.hundreds.mem t → ld.bigPowersOfTen.get? t = none

/-- What the proofs need to know about a language's tables. -/
structure LangData.WF (ld : LangData) : Prop extends LangData.Disjoint ld where
  unit_val : ∀ t v, ld.unitNumbers.get? t = some v → v ≤ 9
  direct_val : ∀ t v, ld.directNumbers.get? t = some v → 10 ≤ v ∧ v ≤ 99
  tens_val : ∀ t v, ld.tens.get? t = some v → v % 10 = 0 ∧ 20 ≤ v ∧ v ≤ 90
  hund_val : ∀ t v, ld.hundreds.get? t = some v → v % 100 = 0 ∧ 100 ≤ v ∧ v ≤ 900
  big_val : ∀ t v, ld.bigPowersOfTen.get? t = some v → ∃ k, 2 ≤ k ∧ k ≤ 600 ∧ v = 10 ^ k
  group : 100 ≤ ld.maximumGroupValue ∧ ld.maximumGroupValue ≤ 10000
  key : ∀ t, ld.allNumbers.mem t → keyCheck ld t = true
  skip : ∀ t, isSkipToken t ld → skipCheck ld t = true

instance {ld : LangData} : CoeOut ld.WF ld.Disjoint := ⟨LangData.WF.toDisjoint⟩

theorem disjCheck_sound {a b : Dict} (h : disjCheck a b = true) (t : PyStr) (ht : a.mem t = true) :
    b.get? t = none := by
  unfold disjCheck at h
  rw [List.all_eq_true] at h
  obtain ⟨v, hv⟩ := (Dict.mem_iff a t).mp ht
  have := h _ (Dict.get?_mem hv)
  simpa [Dict.mem] using this

theorem dictAll_sound {d : Dict} {p : PyStr × Nat → Bool} (h : d.all p = true) {t : PyStr} {v : Nat}
    (ht : d.get? t = some v) : p (t, v) = true :=
  List.all_eq_true.mp h _ (Dict.get?_mem ht)

theorem dictAllKey_sound {d : Dict} {p : PyStr → Bool} (h : d.all (fun e => p e.1) = true) {t : PyStr}
    (ht : d.mem t = true) : p t = true := by
  obtain ⟨v, hv⟩ := (Dict.mem_iff d t).mp ht
  exact dictAll_sound h hv

theorem isPow10_sound {n v : Nat} (h : isPow10 n v = true) : ∃ k, 2 ≤ k ∧ k ≤ n + 1 ∧ v = 10 ^ k := by
  unfold isPow10 at h
  rw [List.any_eq_true] at h
  obtain ⟨k, hk, hv⟩ := h
  exact ⟨k + 2, by omega, by have := List.mem_range.mp hk; omega, by simpa using hv⟩

theorem wf_of_checks (info : Info) (h1 : tableCheck (mkLangData info) = true)
    (h2 : keysCheck (mkLangData info) = true) : (mkLangData info).WF := by
  unfold tableCheck at h1
  unfold keysCheck at h2
  simp only [Bool.and_eq_true] at h1 h2
  obtain ⟨⟨⟨⟨⟨⟨⟨⟨⟨⟨⟨⟨⟨⟨a1, a2⟩, a3⟩, a4⟩, a5⟩, a6⟩, a7⟩, a8⟩, a9⟩, a10⟩, a11⟩, a12⟩, a13⟩, a14⟩, a15⟩ := h1
  obtain ⟨⟨⟨⟨⟨b1, b2⟩, b3⟩, b4⟩, b5⟩, b6⟩ := h2
  have hall : ∀ t, (mkLangData info).allNumbers.mem t =
      ((mkLangData info).unitNumbers.mem t || (mkLangData info).directNumbers.mem t || (mkLangData info).tens.mem t
        || (mkLangData info).hundreds.mem t || (mkLangData info).bigPowersOfTen.mem t) := by
    intro t
    show Dict.mem (Dict.merge (Dict.merge (Dict.merge (Dict.merge (Dict.merge [] _) _) _) _) _) t = _
    simp only [Dict.mem_merge]
    rfl
  refine
    { ud := ?_, all := hall, unit_direct := disjCheck_sound a1, unit_tens := disjCheck_sound a2,
      unit_hund := disjCheck_sound a3, unit_big := disjCheck_sound a4, direct_tens := disjCheck_sound a5,
      direct_hund := disjCheck_sound a6, direct_big := disjCheck_sound a7, tens_hund := disjCheck_sound a8,
      tens_big := disjCheck_sound a9, hund_big := disjCheck_sound a10, unit_val := ?_, direct_val := ?_,
      tens_val := ?_, hund_val := ?_, big_val := ?_, group := ?_, key := ?_, skip := ?_ }
  · intro t
    show Dict.get? (Dict.merge (Dict.merge [] (normalizeDict info.unitNumbers)) (normalizeDict info.directNumbers)) t = _
    rw [Dict.get?_merge' _ (normalizeDict_nodup _), Dict.get?_merge' _ (normalizeDict_nodup _)]
    show _ = (Dict.get? (normalizeDict info.directNumbers) t).or (Dict.get? (normalizeDict info.unitNumbers) t)
    simp [Dict.get?]
  · intro t v h; simpa using dictAll_sound a11 h
  · intro t v h; simpa using dictAll_sound a12 h
  · intro t v h; have := dictAll_sound a13 h; simp at this; omega
  · intro t v h; have := dictAll_sound a14 h; simp at this; omega
  · intro t v h; exact isPow10_sound (dictAll_sound a15 h)
  · show 100 ≤ (if info.useLongScale then 10000 else 100) ∧ (if info.useLongScale then 10000 else 100) ≤ 10000
    split <;> decide
  · intro t h
    rw [hall t] at h
    simp only [Bool.or_eq_true] at h
    rcases h with (((h | h) | h) | h) | h
    · exact dictAllKey_sound b1 h
    · exact dictAllKey_sound b2 h
    · exact dictAllKey_sound b3 h
    · exact dictAllKey_sound b4 h
    · exact dictAllKey_sound b5 h
  · intro t h
    unfold isSkipToken at h
    exact List.all_eq_true.mp b6 t (List.elem_iff.mp h)

set_option maxRecDepth 100000

theorem wf_en : (mkLangData Data.en).WF := wf_of_checks _ (by decide +kernel) (by decide +kernel)
theorem wf_es : (mkLangData Data.es).WF := wf_of_checks _ (by decide +kernel) (by decide +kernel)
theorem wf_hi : (mkLangData Data.hi).WF := wf_of_checks _ (by decide +kernel) (by decide +kernel)
theorem wf_ru : (mkLangData Data.ru).WF := wf_of_checks _ (by decide +kernel) (by decide +kernel)
theorem wf_uk : (mkLangData Data.uk).WF := wf_of_checks _ (by decide +kernel) (by decide +kernel)

/-- A language accepted by `LanguageData` is one of the five. -/
theorem languageData_ok_iff (l : PyStr) (ld : LangData) :
    languageData l = .ok ld ↔
      (l = u!"en" ∧ ld = mkLangData Data.en) ∨ (l = u!"es" ∧ ld = mkLangData Data.es) ∨
      (l = u!"hi" ∧ ld = mkLangData Data.hi) ∨ (l = u!"ru" ∧ ld = mkLangData Data.ru) ∨
      (l = u!"uk" ∧ ld = mkLangData Data.uk) := by
  unfold languageData
  by_cases h : SUPPORTED_LANGUAGES.elem l = true
  · have h' := List.elem_iff.mp h
    simp only [SUPPORTED_LANGUAGES, List.mem_cons, List.not_mem_nil, or_false] at h'
    rw [h]
    rcases h' with rfl | rfl | rfl | rfl | rfl <;> simp [dataModule] <;> exact eq_comm
  · simp only [h]
    have : ∀ m ∈ SUPPORTED_LANGUAGES, l ≠ m := by
      intro m hm hl; exact h (List.elem_iff.mpr (hl ▸ hm))
    simp [SUPPORTED_LANGUAGES] at this
    simp [this]

theorem languageData_wf {l : PyStr} {ld : LangData} (h : languageData l = .ok ld) : ld.WF := by
  rcases (languageData_ok_iff l ld).mp h with ⟨_, rfl⟩ | ⟨_, rfl⟩ | ⟨_, rfl⟩ | ⟨_, rfl⟩ | ⟨_, rfl⟩
  · exact wf_en
  · exact wf_es
  · exact wf_hi
  · exact wf_ru
  · exact wf_uk

end NumberParser
