import Verif.Proofs.VocabularyText
import Verif.Proofs.Detect
import Verif.Spec.Package

/-! The parser with any list of languages. -/

set_option linter.unusedSimpArgs false

namespace NumberParser
open Spec

/-! ## Looking up a language -/

theorem find_mem {p : Package} {l : PyStr} {e : PyStr × Info} (h : p.find? (fun e => e.1 == l) = some e) : e ∈ p ∧ e.1 = l := by
  have h1 := List.mem_of_find?_eq_some h
  have h2 := List.find?_some h
  exact ⟨h1, by simpa using h2⟩

theorem find_of_mem {p : Package} (hp : Distinct p) {l : PyStr} {i : Info} (h : (l, i) ∈ p) :
    p.find? (fun e => e.1 == l) = some (l, i) := by
  induction p with
  | nil => cases h
  | cons x p ih =>
    unfold Distinct at hp
    rw [List.map_cons, List.nodup_cons] at hp
    rcases List.mem_cons.mp h with rfl | h
    · rw [List.find?_cons_of_pos (by simp)]
    · have : x.1 ≠ l := by
        intro e
        exact hp.1 (List.mem_map.mpr ⟨_, h, e.symm⟩)
      rw [List.find?_cons_of_neg (by simpa using this)]
      exact ih hp.2 h

theorem find_agree {p q : Package} (hp : Distinct p) (hq : Distinct q) {l : PyStr} (h : Agree p q l) :
    p.find? (fun e => e.1 == l) = q.find? (fun e => e.1 == l) := by
  cases hf : p.find? (fun e => e.1 == l) with
  | some e =>
    obtain ⟨h1, h2⟩ := find_mem hf
    obtain ⟨l', i⟩ := e
    subst h2
    exact (find_of_mem hq ((h i).mp h1)).symm
  | none =>
    cases hg : q.find? (fun e => e.1 == l) with
    | none => rfl
    | some e =>
      obtain ⟨h1, h2⟩ := find_mem hg
      obtain ⟨l', i⟩ := e
      subst h2
      rw [find_of_mem hp ((h i).mpr h1)] at hf
      cases hf

theorem languageDataIn_mem {p : Package} (hp : Distinct p) {l : PyStr} {i : Info} (h : (l, i) ∈ p) :
    languageDataIn p l = .ok (mkLangData i) := by
  unfold languageDataIn; rw [find_of_mem hp h]

theorem languageDataIn_none {p : Package} {l : PyStr} (h : l ∉ p.map Prod.fst) : languageDataIn p l = .error .unsupportedLanguage := by
  unfold languageDataIn
  cases hf : p.find? (fun e => e.1 == l) with
  | none => rfl
  | some e =>
    obtain ⟨h1, h2⟩ := find_mem hf
    exact absurd (List.mem_map.mpr ⟨e, h1, h2⟩) h

/-! ## A named language -/

theorem parseNumberIn_congr {p q : Package} {l : PyStr} (h : languageDataIn p l = languageDataIn q l) (s : PyStr) :
    parseNumberIn p s (some l) = parseNumberIn q s (some l) := by
  unfold parseNumberIn resolveLanguageIn
  simp only [bind, Except.bind, h]

theorem fractionLoopIn_congr {p q : Package} {l : PyStr} (h : languageDataIn p l = languageDataIn q l) (s : PyStr) (seps : List PyStr) :
    fractionLoopIn p s l seps = fractionLoopIn q s l seps := by
  induction seps with
  | nil => rfl
  | cons sep seps ih =>
    unfold fractionLoopIn
    simp only [parseNumberIn_congr h, ih]

theorem same_of {p q : Package} {l : PyStr} (h : languageDataIn p l = languageDataIn q l) (s : PyStr) : SameResults p q s (some l) := by
  refine ⟨?_, parseNumberIn_congr h s, ?_, ?_⟩
  · unfold parseIn resolveLanguageIn
    simp only [bind, Except.bind, h]
  · unfold parseOrdinalIn resolveLanguageIn
    simp only [bind, Except.bind, h, parseNumberIn_congr h]
  · unfold parseFractionIn resolveLanguageIn
    simp only [bind, Except.bind, fractionLoopIn_congr h]

theorem parseIn_with {p : Package} (hp : Distinct p) {l : PyStr} {i : Info} (h : (l, i) ∈ p) (s : PyStr) :
    parseIn p s (some l) = parseWith (mkLangData i) s l := by
  unfold parseIn resolveLanguageIn
  simp only [bind, Except.bind, languageDataIn_mem hp h]
  rfl

theorem parseNumberIn_with {p : Package} (hp : Distinct p) {l : PyStr} {i : Info} (h : (l, i) ∈ p) (s : PyStr) :
    parseNumberIn p s (some l) = parseNumberWith (mkLangData i) s l := by
  unfold parseNumberIn parseNumberWith resolveLanguageIn
  simp only [bind, Except.bind, languageDataIn_mem hp h]
  generalize mkLangData i = ld
  rfl

/-! ## The five languages -/

theorem repository_names : repository.map Prod.fst = supported := by
  unfold repository
  rw [List.map_map]
  simp [Function.comp_def]

theorem repository_distinct : Distinct repository := by
  unfold Distinct
  rw [repository_names]
  decide +kernel

theorem repository_mem {l : PyStr} (h : l ∈ supported) : (l, file l) ∈ repository := List.mem_map.mpr ⟨l, h, rfl⟩

theorem repository_data (l : PyStr) : languageDataIn repository l = languageData l := by
  by_cases h : l ∈ supported
  · rw [languageDataIn_mem repository_distinct (repository_mem h), supported_data h]
  · rw [languageDataIn_none (by rw [repository_names]; exact h)]
    unfold languageData
    rw [if_pos]
    cases he : SUPPORTED_LANGUAGES.elem l with
    | false => rfl
    | true => exact absurd (List.elem_iff.mp he) h

theorem repository_resolve (s : PyStr) (l : Option PyStr) : resolveLanguageIn repository s l = resolveLanguage s l := by
  cases l with
  | some l => rfl
  | none =>
    show validTokensByLanguageIn repository s = validTokensByLanguage s
    unfold validTokensByLanguageIn validTokensByLanguage
    rw [repository_names]
    have : (fun l => (do return (l, ← countValidIn repository s l) : Res (PyStr × Nat))) = (fun l => (do return (l, ← countValid s l))) := by
      funext l
      unfold countValidIn countValid
      rw [repository_data]
    rw [this]
    rfl

theorem repository_number (s : PyStr) (l : Option PyStr) : parseNumberIn repository s l = parseNumber s l := by
  unfold parseNumberIn parseNumber
  simp only [repository_resolve, repository_data]
  rfl

theorem repository_loop (s l : PyStr) (seps : List PyStr) : fractionLoopIn repository s l seps = fractionLoop s l seps := by
  induction seps with
  | nil => rfl
  | cons sep seps ih =>
    unfold fractionLoopIn fractionLoop
    simp only [repository_number, ih]
    rfl

/-! ## Detection -/

/-- The score as the model computes it -/
def scoreIn (s : PyStr) (e : PyStr × Info) : Nat :=
  ((normalizeTokens (tokenize s e.1)).filter
    (fun t => (isNumberToken t (mkLangData e.2)).isSome || isSkipToken t (mkLangData e.2))).length

theorem recognised_iff {i : Info} (hi : Tidy i) (t : PyStr) :
    RecognisedOf i t ↔ ((isNumberToken (norm t) (mkLangData i)).isSome || isSkipToken (norm t) (mkLangData i)) = true := by
  unfold RecognisedOf SkipOf
  rw [Bool.or_eq_true, Option.isSome_iff_exists]
  refine or_congr ?_ ?_
  · constructor
    · rintro ⟨c, h⟩; exact ⟨c, (numberTokenOf_iff hi).mpr h⟩
    · rintro ⟨c, h⟩; exact ⟨c, (numberTokenOf_iff hi).mp h⟩
  · exact skip_mem.symm

theorem scoreIn_iff {e : PyStr × Info} (hi : Tidy e.2) (s : PyStr) (k : Nat) : ScoreIn e s k ↔ scoreIn s e = k := by
  have key : ∀ ts : List PyStr, ((normalizeTokens ts).filter
      (fun t => (isNumberToken t (mkLangData e.2)).isSome || isSkipToken t (mkLangData e.2))).length =
      (ts.filter (fun t => @decide (RecognisedOf e.2 t) (Classical.propDecidable _))).length := by
    intro ts
    unfold normalizeTokens
    rw [List.filter_map, List.length_map]
    congr 1
    apply List.filter_congr
    intro t _
    rw [Bool.eq_iff_iff]
    simp only [Function.comp, decide_eq_true_eq]
    exact (recognised_iff hi t).symm
  unfold ScoreIn scoreIn
  constructor
  · rintro ⟨ts, hts, hk⟩
    rw [tokens_iff] at hts; subst hts
    rw [key, ← hk]
  · intro hk
    exact ⟨_, tokens_tokenize e.1 s, by rw [← hk, key]⟩

theorem better_iff {e e' : PyStr × Info} (hi : Tidy e.2) (hi' : Tidy e'.2) (s : PyStr) : Better s e e' ↔ scoreIn s e' < scoreIn s e := by
  unfold Better
  constructor
  · rintro ⟨k, k', h, h', hlt⟩
    rw [scoreIn_iff hi] at h; rw [scoreIn_iff hi'] at h'
    omega
  · intro h
    exact ⟨_, _, (scoreIn_iff hi s _).mpr rfl, (scoreIn_iff hi' s _).mpr rfl, h⟩

theorem validTokensIn_eq {p : Package} (hp : Distinct p) (s : PyStr) : validTokensByLanguageIn p s =
    .ok (if (maxKey (p.map (fun e => (e.1, scoreIn s e)))).2 = 0 then u!"en" else (maxKey (p.map (fun e => (e.1, scoreIn s e)))).1) := by
  unfold validTokensByLanguageIn
  have : (p.map Prod.fst).mapM (fun l => (do return (l, ← countValidIn p s l) : Res (PyStr × Nat))) =
      .ok (p.map (fun e => (e.1, scoreIn s e))) := by
    have key : ∀ q : Package, (∀ e ∈ q, e ∈ p) →
        (q.map Prod.fst).mapM (fun l => (do return (l, ← countValidIn p s l) : Res (PyStr × Nat))) = .ok (q.map (fun e => (e.1, scoreIn s e))) := by
      intro q
      induction q with
      | nil => intro _; rfl
      | cons e q ih =>
        intro h
        have h1 : countValidIn p s e.1 = .ok (scoreIn s e) := by
          unfold countValidIn
          rw [languageDataIn_mem hp (h e (by simp))]
          rfl
        rw [List.map_cons, List.mapM_cons, h1, ih (fun x hx => h x (List.mem_cons_of_mem _ hx))]
        rfl
    exact key p (fun _ h => h)
  rw [this]
  simp only [bind, Except.bind, pure, Except.pure]
  split <;> rfl

theorem detectedIn_model {p : Package} (hp : Distinct p) (hne : p ≠ []) (ht : ∀ e ∈ p, Tidy e.2) (s : PyStr) :
    ∃ l, validTokensByLanguageIn p s = .ok l ∧ DetectedIn p s l := by
  obtain ⟨a, b, h1, h2, h3⟩ := maxKey_spec (p.map (fun e => (e.1, scoreIn s e))) (by simpa using hne)
  rw [validTokensIn_eq hp]
  generalize hm : maxKey (p.map (fun e => (e.1, scoreIn s e))) = m at *
  obtain ⟨a', rest, hs, rfl, hr⟩ := List.map_eq_append_iff.mp h1
  obtain ⟨⟨l, i⟩, b', rfl, hl, rfl⟩ := List.map_eq_cons_iff.mp hr
  have hmem : ∀ x, x ∈ a' ++ (l, i) :: b' → Tidy x.2 := by intro x hx; exact ht x (by rw [hs]; exact hx)
  have hti := hmem (l, i) (by simp)
  refine ⟨_, rfl, ?_⟩
  split
  · rename_i h0
    refine Or.inr ⟨rfl, ?_⟩
    intro e he
    rw [scoreIn_iff (ht e he)]
    rw [hs] at he
    rcases List.mem_append.mp he with he | he
    · have := h2 _ (List.mem_map.mpr ⟨e, he, rfl⟩); simp only at this; omega
    · rcases List.mem_cons.mp he with rfl | he
      · rw [← hl] at h0; exact h0
      · have := h3 _ (List.mem_map.mpr ⟨e, he, rfl⟩); simp only at this; omega
  · rename_i h0
    refine Or.inl ⟨a', i, b', by rw [← hl]; exact hs, ?_, ?_, ?_⟩
    · rw [← hl] at h0 ⊢
      rw [scoreIn_iff hti]; exact h0
    · intro e he
      rw [← hl]
      rw [better_iff hti (hmem e (by simp [he]))]
      have := h2 _ (List.mem_map.mpr ⟨e, he, rfl⟩)
      rw [← hl] at this; exact this
    · intro e he
      rw [← hl]
      rw [better_iff (hmem e (by simp [he])) hti]
      have := h3 _ (List.mem_map.mpr ⟨e, he, rfl⟩)
      rw [← hl] at this
      exact Nat.not_lt.mpr this

/-- What detection says, in terms of scores: the best is unique. -/
theorem detectedIn_scores {p : Package} (ht : ∀ e ∈ p, Tidy e.2) {s l : PyStr} (h : DetectedIn p s l) :
    (∃ a i b, p = a ++ (l, i) :: b ∧ 0 < scoreIn s (l, i) ∧ (∀ e ∈ a, scoreIn s e < scoreIn s (l, i)) ∧ (∀ e ∈ b, scoreIn s e ≤ scoreIn s (l, i))) ∨
    (l = u!"en" ∧ ∀ e ∈ p, scoreIn s e = 0) := by
  rcases h with ⟨a, i, b, rfl, h0, h1, h2⟩ | ⟨rfl, h⟩
  · have hti := ht (l, i) (by simp)
    refine Or.inl ⟨a, i, b, rfl, ?_, ?_, ?_⟩
    · rw [scoreIn_iff hti] at h0; omega
    · intro e he; exact (better_iff hti (ht e (by simp [he])) s).mp (h1 e he)
    · intro e he
      have := h2 e he
      rw [better_iff (ht e (by simp [he])) hti] at this
      omega
  · exact Or.inr ⟨rfl, fun e he => (scoreIn_iff (ht e he) s 0).mp (h e he)⟩

theorem detectedIn_of_scores {p : Package} (ht : ∀ e ∈ p, Tidy e.2) {s l : PyStr}
    (h : (∃ a i b, p = a ++ (l, i) :: b ∧ 0 < scoreIn s (l, i) ∧ (∀ e ∈ a, scoreIn s e < scoreIn s (l, i)) ∧ (∀ e ∈ b, scoreIn s e ≤ scoreIn s (l, i))) ∨
    (l = u!"en" ∧ ∀ e ∈ p, scoreIn s e = 0)) : DetectedIn p s l := by
  rcases h with ⟨a, i, b, rfl, h0, h1, h2⟩ | ⟨rfl, h⟩
  · have hti := ht (l, i) (by simp)
    refine Or.inl ⟨a, i, b, rfl, ?_, ?_, ?_⟩
    · rw [scoreIn_iff hti]; omega
    · intro e he; exact (better_iff hti (ht e (by simp [he])) s).mpr (h1 e he)
    · intro e he
      rw [better_iff (ht e (by simp [he])) hti]
      have := h2 e he
      omega
  · exact Or.inr ⟨rfl, fun e he => (scoreIn_iff (ht e he) s 0).mpr (h e he)⟩

theorem detectedIn_unique {p : Package} (ht : ∀ e ∈ p, Tidy e.2) {s l l' : PyStr} (h : DetectedIn p s l) (h' : DetectedIn p s l') : l = l' := by
  rcases detectedIn_scores ht h with ⟨a, i, b, e, h0, h1, h2⟩ | ⟨rfl, hz⟩
  · rcases detectedIn_scores ht h' with ⟨a', i', b', e', h0', h1', h2'⟩ | ⟨rfl, hz⟩
    · have e : a ++ (l, i) :: b = a' ++ (l', i') :: b' := by rw [← e, ← e']
      rcases List.append_eq_append_iff.mp e with ⟨c, hc1, hc2⟩ | ⟨c, hc1, hc2⟩
      · cases c with
        | nil => simp at hc2; exact hc2.1.1
        | cons x c =>
          simp only [List.cons_append, List.cons.injEq] at hc2
          obtain ⟨rfl, hb⟩ := hc2
          have := h1' (l, i) (by rw [hc1]; simp)
          have := h2 (l', i') (by rw [hb]; simp)
          omega
      · cases c with
        | nil => simp at hc2; exact hc2.1.1.symm
        | cons x c =>
          simp only [List.cons_append, List.cons.injEq] at hc2
          obtain ⟨rfl, hb⟩ := hc2
          have := h1 (l', i') (by rw [hc1]; simp)
          have := h2' (l, i) (by rw [hb]; simp)
          omega
    · have := hz (l, i) (by rw [e]; simp)
      omega
  · rcases detectedIn_scores ht h' with ⟨a', i', b', e', h0', _, _⟩ | ⟨rfl, _⟩
    · have := hz (l', i') (by rw [e']; simp)
      omega
    · rfl

theorem resolveIn_none {p : Package} (hp : Distinct p) (hne : p ≠ []) (ht : ∀ e ∈ p, Tidy e.2) {s l : PyStr} (h : DetectedIn p s l) :
    resolveLanguageIn p s none = .ok l := by
  obtain ⟨l', h1, h2⟩ := detectedIn_model hp hne ht s
  rw [detectedIn_unique ht h h2]
  exact h1

/-! ## More or fewer languages -/

/-- The first best language of a longer list is the first best one of a shorter list that contains it. -/
theorem detectedIn_sublist {p q : Package} (hs : p.Sublist q) (hq : Distinct q) (ht : ∀ e ∈ q, Tidy e.2) {s l : PyStr} (h : DetectedIn q s l)
    (hl : ∀ i, (l, i) ∈ q → ¬ ScoreIn (l, i) s 0 → (l, i) ∈ p) : DetectedIn p s l := by
  have htp : ∀ e ∈ p, Tidy e.2 := fun e he => ht e (hs.subset he)
  rcases detectedIn_scores ht h with ⟨a, i, b, rfl, h0, h1, h2⟩ | ⟨rfl, hz⟩
  · have hm := hl i (by simp) (by rw [scoreIn_iff (ht (l, i) (by simp))]; omega)
    have hnb : (l, i) ∉ b := by
      intro hx
      unfold Distinct at hq
      rw [List.map_append, List.map_cons, List.nodup_append, List.nodup_cons] at hq
      exact hq.2.1.1 (List.mem_map.mpr ⟨_, hx, rfl⟩)
    obtain ⟨a', r, rfl, ha, hr⟩ := List.sublist_append_iff.mp hs
    have hnot : (l, i) ∉ a' := by
      intro hx
      have := h1 _ (ha.subset hx)
      omega
    apply detectedIn_of_scores htp
    rcases List.mem_append.mp hm with hx | hx
    · exact absurd hx hnot
    · cases hr with
      | cons _ hr => exact absurd (hr.subset hx) hnb
      | cons_cons _ hr =>
        exact Or.inl ⟨a', i, _, rfl, h0, fun e he => h1 e (ha.subset he), fun e he => h2 e (hr.subset he)⟩
  · exact detectedIn_of_scores htp (Or.inr ⟨rfl, fun e he => hz e (hs.subset he)⟩)

/-- Languages that recognise nothing, or less than another one, do not matter. -/
theorem detectedIn_superlist {p q : Package} (hs : p.Sublist q) (hp : p ≠ []) (hq : Distinct q) (ht : ∀ e ∈ q, Tidy e.2) {s l : PyStr}
    (h : DetectedIn p s l) (hx : ∀ e ∈ q, e ∉ p → ScoreIn e s 0 ∨ ∃ e' ∈ p, Better s e' e) : DetectedIn q s l := by
  have htp : ∀ e ∈ p, Tidy e.2 := fun e he => ht e (hs.subset he)
  have hne : q ≠ [] := by rintro rfl; exact hp (List.sublist_nil.mp hs)
  obtain ⟨l', _, hd⟩ := detectedIn_model hq hne ht s
  have hd' : DetectedIn p s l' := by
    refine detectedIn_sublist hs hq ht hd ?_
    intro i hi h0
    by_cases hm : (l', i) ∈ p
    · exact hm
    · exfalso
      rcases hx _ hi hm with h | ⟨e', he', hb⟩
      · exact h0 h
      · rw [better_iff (htp e' he') (ht _ hi)] at hb
        rw [scoreIn_iff (ht _ hi)] at h0
        rcases detectedIn_scores ht hd with ⟨a, j, b, rfl, h1, h2, h3⟩ | ⟨rfl, hz⟩
        · have hij : i = j := by
            have e1 := find_of_mem hq hi
            have e2 := find_of_mem hq (show (l', j) ∈ a ++ (l', j) :: b by simp)
            rw [e1] at e2
            injection e2 with e2
            exact (Prod.mk.inj e2).2
          subst hij
          rcases List.mem_append.mp (hs.subset he') with hy | hy
          · have := h2 _ hy; omega
          · rcases List.mem_cons.mp hy with rfl | hy
            · omega
            · have := h3 _ hy; omega
        · exact h0 (hz _ hi)
  rw [detectedIn_unique htp h hd']
  exact hd

theorem agree_sublist {p q : Package} (hs : p.Sublist q) (hq : Distinct q) {l : PyStr} (h : l ∈ p.map Prod.fst) : Agree p q l := by
  intro i
  refine ⟨fun hi => hs.subset hi, fun hi => ?_⟩
  obtain ⟨⟨l', j⟩, hj, rfl⟩ := List.mem_map.mp h
  have e1 := find_of_mem hq hi
  rw [find_of_mem hq (hs.subset hj)] at e1
  injection e1 with e1
  rw [← e1]; exact hj

theorem detectedIn_named {p : Package} (he : u!"en" ∈ p.map Prod.fst) {s l : PyStr} (h : DetectedIn p s l) : l ∈ p.map Prod.fst := by
  rcases h with ⟨a, i, b, rfl, _⟩ | ⟨rfl, _⟩
  · simp
  · exact he

/-- Without a language argument, the detected language is used. -/
theorem none_some {p : Package} (hp : Distinct p) (hne : p ≠ []) (ht : ∀ e ∈ p, Tidy e.2) {s l : PyStr} (h : DetectedIn p s l) :
    parseIn p s none = parseIn p s (some l) ∧ parseNumberIn p s none = parseNumberIn p s (some l) ∧
    parseOrdinalIn p s none = parseOrdinalIn p s (some l) ∧ parseFractionIn p s none = parseFractionIn p s (some l) := by
  have hr := resolveIn_none hp hne ht h
  have hr' : resolveLanguageIn p s (some l) = .ok l := rfl
  refine ⟨?_, ?_, ?_, ?_⟩
  · unfold parseIn; rw [hr, hr']
  · unfold parseNumberIn; rw [hr, hr']
  · unfold parseOrdinalIn; rw [hr, hr']
  · unfold parseFractionIn; rw [hr, hr']

/-- Two lists with the same detected language, about which they agree, give the same. -/
theorem same_none {p q : Package} (hp : Distinct p) (hne : p ≠ []) (htp : ∀ e ∈ p, Tidy e.2) (hq : Distinct q) (hqe : q ≠ [])
    (htq : ∀ e ∈ q, Tidy e.2) {s l : PyStr} (h : DetectedIn p s l) (h' : DetectedIn q s l) (ha : Agree p q l) : SameResults p q s none := by
  obtain ⟨a1, a2, a3, a4⟩ := none_some hp hne htp h
  obtain ⟨b1, b2, b3, b4⟩ := none_some hq hqe htq h'
  have hd : languageDataIn p l = languageDataIn q l := by unfold languageDataIn; rw [find_agree hp hq ha]
  obtain ⟨c1, c2, c3, c4⟩ := same_of hd s
  exact ⟨by rw [a1, b1, c1], by rw [a2, b2, c2], by rw [a3, b3, c3], by rw [a4, b4, c4]⟩

end NumberParser
