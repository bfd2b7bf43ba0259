import Verif.Proofs.Solid
import Verif.Spec.Words

/-! The specification's words and tokens in terms of the model's tables and tokeniser. -/

set_option linter.unusedSimpArgs false

namespace NumberParser
open Spec

theorem supported_data {l : PyStr} (h : l ∈ supported) : languageData l = .ok (mkLangData (file l)) := by
  simp only [supported, List.mem_cons, List.not_mem_nil, or_false] at h
  rcases h with rfl | rfl | rfl | rfl | rfl <;> rfl

theorem data_supported {l : PyStr} {ld : LangData} (h : languageData l = .ok ld) :
    l ∈ supported ∧ ld = mkLangData (file l) := by
  rcases (languageData_ok_iff l ld).mp h with ⟨rfl, rfl⟩ | ⟨rfl, rfl⟩ | ⟨rfl, rfl⟩ | ⟨rfl, rfl⟩ | ⟨rfl, rfl⟩ <;>
    exact ⟨by decide, rfl⟩

/-- The table of a class. -/
def LangData.table (ld : LangData) : Class → Dict
  | .unit => ld.unitNumbers
  | .direct => ld.directNumbers
  | .tens => ld.tens
  | .hundreds => ld.hundreds
  | .scale => ld.bigPowersOfTen

def entryCheck (d : Dict) : Bool :=
  let nd := normalizeDict d
  d.all (fun e => norm e.1 == stripAccents e.1 && nd.get? (norm e.1) == some e.2 &&
    !(norm e.1).elem 10)

def fileCheck (i : Info) : Bool :=
  entryCheck i.unitNumbers && entryCheck i.directNumbers && entryCheck i.tens && entryCheck i.hundreds
    && entryCheck i.bigPowersOfTen

set_option maxRecDepth 100000 in
theorem fileCheck_all {l : PyStr} (h : l ∈ supported) : fileCheck (file l) = true := by
  simp only [supported, List.mem_cons, List.not_mem_nil, or_false] at h
  rcases h with rfl | rfl | rfl | rfl | rfl <;> decide +kernel

theorem table_file (l : PyStr) (k : Class) : (mkLangData (file l)).table k = normalizeDict (entries l k) := by
  cases k <;> rfl

theorem entryCheck_class {l : PyStr} (h : l ∈ supported) (k : Class) : entryCheck (entries l k) = true := by
  have := fileCheck_all h
  unfold fileCheck at this
  simp only [Bool.and_eq_true] at this
  cases k
  · exact this.1.1.1.1
  · exact this.1.1.1.2
  · exact this.1.1.2
  · exact this.1.2
  · exact this.2

theorem Dict.mem_set {d : Dict} {k : PyStr} {v : Nat} {e : PyStr × Nat} (h : e ∈ Dict.set d k v) :
    e ∈ d ∨ e = (k, v) := by
  induction d with
  | nil => simp [Dict.set] at h; exact Or.inr h
  | cons f d ih =>
    obtain ⟨k', v'⟩ := f
    simp only [Dict.set] at h
    split at h
    · rename_i hk
      rcases List.mem_cons.mp h with h | h
      · right; rw [h, eq_of_beq hk]
      · exact Or.inl (List.mem_cons_of_mem _ h)
    · rcases List.mem_cons.mp h with h | h
      · exact Or.inl (by rw [h]; exact List.mem_cons_self)
      · rcases ih h with h | h
        · exact Or.inl (List.mem_cons_of_mem _ h)
        · exact Or.inr h

theorem mem_normalizeDict {d : Dict} {e : PyStr × Nat} (h : e ∈ normalizeDict d) :
    ∃ w, (w, e.2) ∈ d ∧ stripAccents w = e.1 := by
  unfold normalizeDict at h
  have gen : ∀ (d acc : Dict), e ∈ d.foldl (fun acc e => Dict.set acc (stripAccents e.1) e.2) acc →
      e ∈ acc ∨ ∃ w, (w, e.2) ∈ d ∧ stripAccents w = e.1 := by
    intro d
    induction d with
    | nil => intro acc h; exact Or.inl h
    | cons f d ih =>
      intro acc h
      rcases ih _ h with h | ⟨w, h1, h2⟩
      · rcases Dict.mem_set h with h | h
        · exact Or.inl h
        · right; refine ⟨f.1, ?_, ?_⟩
          · rw [h]; exact List.mem_cons_self
          · rw [h]
      · exact Or.inr ⟨w, List.mem_cons_of_mem _ h1, h2⟩
  rcases gen d [] h with h | h
  · simp at h
  · exact h

/-- Table lookups say what the data file lists. -/
theorem formOf_iff {l : PyStr} (h : l ∈ supported) (k : Class) (v : Nat) (f : PyStr) :
    FormOf l k v f ↔ ((mkLangData (file l)).table k).get? f = some v := by
  have hc := entryCheck_class h k
  unfold entryCheck at hc
  simp only [List.all_eq_true, Bool.and_eq_true, beq_iff_eq] at hc
  rw [table_file]
  constructor
  · rintro ⟨w, hw, rfl⟩
    exact (hc _ hw).1.2
  · intro hg
    obtain ⟨w, hw, hs⟩ := mem_normalizeDict (Dict.get?_mem hg)
    exact ⟨w, hw, ((hc _ hw).1.1).trans hs⟩

theorem formOf_no_newline {l : PyStr} (h : l ∈ supported) {k : Class} {v : Nat} {f : PyStr} (hf : FormOf l k v f) :
    10 ∉ f := by
  obtain ⟨w, hw, rfl⟩ := hf
  have hc := entryCheck_class h k
  unfold entryCheck at hc
  simp only [List.all_eq_true, Bool.and_eq_true, beq_iff_eq] at hc
  have := (hc _ hw).2
  intro hm
  rw [show (norm w) = form w from rfl, List.elem_iff.mpr hm] at this
  cases this

theorem allNumbers_iff {l : PyStr} (h : l ∈ supported) (f : PyStr) :
    (mkLangData (file l)).allNumbers.mem f = true ↔ ∃ k v, FormOf l k v f := by
  rw [(languageData_wf (supported_data h)).all]
  simp only [Bool.or_eq_true, Dict.mem_iff]
  constructor
  · rintro ((((⟨v, hv⟩ | ⟨v, hv⟩) | ⟨v, hv⟩) | ⟨v, hv⟩) | ⟨v, hv⟩)
    · exact ⟨.unit, v, (formOf_iff h _ _ _).mpr hv⟩
    · exact ⟨.direct, v, (formOf_iff h _ _ _).mpr hv⟩
    · exact ⟨.tens, v, (formOf_iff h _ _ _).mpr hv⟩
    · exact ⟨.hundreds, v, (formOf_iff h _ _ _).mpr hv⟩
    · exact ⟨.scale, v, (formOf_iff h _ _ _).mpr hv⟩
  · rintro ⟨k, v, hv⟩
    have := (formOf_iff h _ _ _).mp hv
    cases k
    · exact Or.inl (Or.inl (Or.inl (Or.inl ⟨v, this⟩)))
    · exact Or.inl (Or.inl (Or.inl (Or.inr ⟨v, this⟩)))
    · exact Or.inl (Or.inl (Or.inr ⟨v, this⟩))
    · exact Or.inl (Or.inr ⟨v, this⟩)
    · exact Or.inr ⟨v, this⟩

theorem cardinal_iff {l : PyStr} (h : l ∈ supported) (t : PyStr) :
    Cardinal l t ↔ (mkLangData (file l)).allNumbers.mem (norm t) = true := (allNumbers_iff h _).symm

theorem skip_iff (l t : PyStr) : Skip l t ↔ isSkipToken (norm t) (mkLangData (file l)) = true := by
  unfold isSkipToken
  rw [List.elem_iff]; rfl

/-- The class of a token, from the data file. -/
theorem kindOf_word {l : PyStr} (h : l ∈ supported) {k : Class} {v : Nat} {f : PyStr} (hf : FormOf l k v f) :
    kindOf (mkLangData (file l)) f =
      (match k with | .unit => .unit v | .direct => .direct v | .tens => .tens v | .hundreds => .hund v | .scale => .big v) := by
  have hg := (formOf_iff h _ _ _).mp hf
  have hw := languageData_wf (supported_data h)
  generalize mkLangData (file l) = ld at *
  have hm : ∀ {d : Dict}, d.get? f = some v → d.mem f = true := fun hd => (Dict.mem_iff _ _).mpr ⟨v, hd⟩
  unfold kindOf
  cases k
  · simp only [LangData.table] at hg; simp [hg]
  · simp only [LangData.table] at hg
    have hu : ld.unitNumbers.get? f = none := by
      cases hc : ld.unitNumbers.get? f with
      | none => rfl
      | some x => have := hw.unit_direct f ((Dict.mem_iff _ _).mpr ⟨x, hc⟩); rw [hg] at this; cases this
    simp [hg, hu]
  · simp only [LangData.table] at hg
    have hu : ld.unitNumbers.get? f = none := by
      cases hc : ld.unitNumbers.get? f with
      | none => rfl
      | some x => have := hw.unit_tens f ((Dict.mem_iff _ _).mpr ⟨x, hc⟩); rw [hg] at this; cases this
    have hu2 : ld.directNumbers.get? f = none := by
      cases hc : ld.directNumbers.get? f with
      | none => rfl
      | some x => have := hw.direct_tens f ((Dict.mem_iff _ _).mpr ⟨x, hc⟩); rw [hg] at this; cases this
    simp [hg, hu, hu2]
  · simp only [LangData.table] at hg
    have hu : ld.unitNumbers.get? f = none := by
      cases hc : ld.unitNumbers.get? f with
      | none => rfl
      | some x => have := hw.unit_hund f ((Dict.mem_iff _ _).mpr ⟨x, hc⟩); rw [hg] at this; cases this
    have hu2 : ld.directNumbers.get? f = none := by
      cases hc : ld.directNumbers.get? f with
      | none => rfl
      | some x => have := hw.direct_hund f ((Dict.mem_iff _ _).mpr ⟨x, hc⟩); rw [hg] at this; cases this
    have hu3 : ld.tens.get? f = none := by
      cases hc : ld.tens.get? f with
      | none => rfl
      | some x => have := hw.tens_hund f ((Dict.mem_iff _ _).mpr ⟨x, hc⟩); rw [hg] at this; cases this
    simp [hg, hu, hu2, hu3]
  · simp only [LangData.table] at hg
    have hu : ld.unitNumbers.get? f = none := by
      cases hc : ld.unitNumbers.get? f with
      | none => rfl
      | some x => have := hw.unit_big f ((Dict.mem_iff _ _).mpr ⟨x, hc⟩); rw [hg] at this; cases this
    have hu2 : ld.directNumbers.get? f = none := by
      cases hc : ld.directNumbers.get? f with
      | none => rfl
      | some x => have := hw.direct_big f ((Dict.mem_iff _ _).mpr ⟨x, hc⟩); rw [hg] at this; cases this
    have hu3 : ld.tens.get? f = none := by
      cases hc : ld.tens.get? f with
      | none => rfl
      | some x => have := hw.tens_big f ((Dict.mem_iff _ _).mpr ⟨x, hc⟩); rw [hg] at this; cases this
    have hu4 : ld.hundreds.get? f = none := by
      cases hc : ld.hundreds.get? f with
      | none => rfl
      | some x => have := hw.hund_big f ((Dict.mem_iff _ _).mpr ⟨x, hc⟩); rw [hg] at this; cases this
    simp [hg, hu, hu2, hu3, hu4]

/-! ### Ordinals -/

theorem subEnd_cases (suf repl s : PyStr) :
    (∃ u, s = u ++ suf ∧ subEnd suf repl s = u ++ repl) ∨
    (∃ u, s = u ++ suf ++ [10] ∧ subEnd suf repl s = u ++ repl ++ [10]) ∨ subEnd suf repl s = s := by
  unfold subEnd
  split
  · rename_i h
    obtain ⟨u, rfl⟩ := List.isSuffixOf_iff_suffix.mp h
    left; exact ⟨u, rfl, by simp⟩
  · split
    · rename_i h
      obtain ⟨u, rfl⟩ := List.isSuffixOf_iff_suffix.mp h
      right; left
      refine ⟨u, by simp, ?_⟩
      have : (u ++ (suf ++ [10])).length - suf.length - 1 = u.length := by simp; omega
      rw [this]; simp
    · exact Or.inr (Or.inr rfl)

theorem subEnd_suffix (suf repl u : PyStr) : subEnd suf repl (u ++ suf) = u ++ repl := by
  unfold subEnd
  rw [if_pos (List.isSuffixOf_iff_suffix.mpr ⟨u, rfl⟩)]; simp

theorem isNumberToken_iff' {l : PyStr} (h : l ∈ supported) (f : PyStr) :
    (isNumberToken f (mkLangData (file l))).isSome = true ↔
      ∃ k v c, FormOf l k v c ∧ (irregular f = c ∨ irregular f = c ++ u!"th" ∨
        ∃ stem, c = stem ++ u!"y" ∧ irregular f = stem ++ u!"ieth") := by
  have hc : ∀ t, (isCardinalToken t (mkLangData (file l))).isSome = true ↔ ∃ k v, FormOf l k v t := by
    intro t
    unfold isCardinalToken
    rw [← allNumbers_iff h]
    split <;> simp_all
  unfold isNumberToken
  rw [hc]
  have hirr : applyCardinalConversion f (mkLangData (file l)) =
      if (isCardinalToken (subEnd u!"ieth" u!"y" (irregular f)) (mkLangData (file l))).isSome = true
      then subEnd u!"ieth" u!"y" (irregular f)
      else if (isCardinalToken (subEnd u!"th" [] (irregular f)) (mkLangData (file l))).isSome = true
      then subEnd u!"th" [] (irregular f) else irregular f := rfl
  rw [hirr]
  generalize irregular f = g
  have nl : ∀ {x : PyStr}, ¬ ∃ k v, FormOf l k v (x ++ [10]) := by
    rintro x ⟨k, v, hx⟩
    exact formOf_no_newline h hx (by simp)
  constructor
  · split
    · rename_i h1
      rintro ⟨k, v, hf⟩
      rcases subEnd_cases u!"ieth" u!"y" g with ⟨u, hg, hs⟩ | ⟨u, hg, hs⟩ | hs
      · exact ⟨k, v, _, hf, Or.inr (Or.inr ⟨u, hs, hg⟩)⟩
      · rw [hs] at hf; exact absurd ⟨k, v, hf⟩ nl
      · exact ⟨k, v, _, hf, Or.inl hs.symm⟩
    · split
      · rintro ⟨k, v, hf⟩
        rcases subEnd_cases u!"th" [] g with ⟨u, hg, hs⟩ | ⟨u, hg, hs⟩ | hs
        · exact ⟨k, v, _, hf, Or.inr (Or.inl (by rw [hs]; simpa using hg))⟩
        · rw [hs] at hf; exact absurd ⟨k, v, hf⟩ nl
        · exact ⟨k, v, _, hf, Or.inl hs.symm⟩
      · rintro ⟨k, v, hf⟩
        exact ⟨k, v, _, hf, Or.inl rfl⟩
  · rintro ⟨k, v, c, hf, hg⟩
    split
    · rename_i h1; exact (hc _).mp h1
    · rename_i h1
      split
      · rename_i h2; exact (hc _).mp h2
      · rename_i h2
        rw [hc] at h1 h2
        rcases hg with hg | hg | ⟨stem, hs, hg⟩
        · exact ⟨k, v, by rw [hg]; exact hf⟩
        · exfalso; apply h2
          rw [hg, subEnd_suffix]
          exact ⟨k, v, by simpa using hf⟩
        · exfalso; apply h1
          rw [hg, subEnd_suffix, ← hs]
          exact ⟨k, v, hf⟩

theorem numberWord_iff {l : PyStr} (h : l ∈ supported) (t : PyStr) :
    NumberWord l t ↔ (isNumberToken (norm t) (mkLangData (file l))).isSome = true := (isNumberToken_iff' h _).symm

end NumberParser
