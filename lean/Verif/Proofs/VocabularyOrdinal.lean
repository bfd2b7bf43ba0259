import Verif.Proofs.VocabularyText
import Verif.Proofs.OrdinalMeaning
import Verif.Spec.VocabularyOrdinal

/-! `parse_ordinal` with any vocabulary. -/

set_option linter.unusedSimpArgs false

namespace NumberParser
open Spec

/-- What a token becomes -/
abbrev convOf (I : Info) (t : PyStr) : PyStr := applyCardinalConversion (norm t) (mkLangData I)

theorem numberToken_convOf {I : Info} {t c : PyStr} (h : isNumberToken (norm t) (mkLangData I) = some c) : convOf I t = c := by
  unfold isNumberToken isCardinalToken at h
  split at h
  · injection h
  · cases h

theorem stands_chars {I : Info} {g c : PyStr} (h : StandsForOf I g c) : ∀ x ∈ c, isAz x = true ∨ x ∈ g := by
  obtain ⟨a, b, hc, _, _⟩ := h
  have key : ∀ cs : List PyStr, Candidates g cs → ∀ d ∈ cs, ∀ x ∈ d, isAz x = true ∨ x ∈ g := by
    intro cs hcs
    cases hcs with
    | ieth stem =>
      intro d hd x hx
      simp only [List.mem_cons, List.not_mem_nil, or_false] at hd
      rcases hd with rfl | rfl | rfl
      · rcases List.mem_append.mp hx with h | h
        · exact Or.inr (by simp [h])
        · rw [List.mem_singleton] at h; subst h; exact Or.inl (by decide)
      · rcases List.mem_append.mp hx with h | h
        · exact Or.inr (by simp [h])
        · refine Or.inl ?_
          simp only [List.mem_cons, List.not_mem_nil, or_false] at h
          rcases h with rfl | rfl <;> decide
      · exact Or.inr hx
    | th stem _ =>
      intro d hd x hx
      simp only [List.mem_cons, List.not_mem_nil, or_false] at hd
      rcases hd with rfl | rfl
      · exact Or.inr hx
      · exact Or.inr (by simp [hx])
    | other _ _ =>
      intro d hd x hx
      rw [List.mem_singleton] at hd; subst hd
      exact Or.inr hx
  exact key _ hc c (by simp)

theorem convOf_chars {I : Info} (hi : Tidy I) {t : PyStr} : ∀ x ∈ convOf I t, isAz x = true ∨ x ∈ norm t := by
  intro x hx
  cases h : isNumberToken (norm t) (mkLangData I) with
  | none =>
    rw [show convOf I t = _ from conv_other (by rw [h]; rfl)] at hx
    exact irregular_chars _ x hx
  | some c =>
    rw [numberToken_convOf h] at hx
    rcases stands_chars ((numberTokenOf_iff hi).mp h) x hx with h' | h'
    · exact Or.inl h'
    · exact irregular_chars _ x h'

theorem convOf_noApos {I : Info} (hi : Tidy I) {t : PyStr} (h : noApos t = true) : noApos (convOf I t) = true := by
  unfold noApos
  rw [List.all_eq_true]
  intro x hx
  rcases convOf_chars hi x hx with h' | h'
  · unfold isAz at h'
    simp only [Bool.and_eq_true, decide_eq_true_eq] at h'
    simp; omega
  · exact List.all_eq_true.mp (norm_noApos h) x h'

theorem convOf_blank {I : Info} (hi : Tidy I) (t : PyStr) : blank (convOf I t) = blank (norm t) := by
  cases h : isNumberToken (norm t) (mkLangData I) with
  | none => rw [show convOf I t = _ from conv_other (by rw [h]; rfl)]; exact irregular_blank
  | some c =>
    have h1 : blank (convOf I t) = false := by
      rw [numberToken_convOf h]
      exact listed_blank hi (stands_listed ((numberTokenOf_iff hi).mp h))
    rw [h1]
    cases hb : blank (norm t) with
    | false => rfl
    | true => rw [blank_noNumber hi hb] at h; cases h

theorem convOf_stab {I : Info} (hi : Tidy I) {t : PyStr} {x : Nat} (hx : x ∈ convOf I t) : stab x = true :=
  (convOf_chars hi x hx).elim (fun h => (az_facts h).1) norm_stab

theorem convOf_noShy {I : Info} (hi : Tidy I) {t : PyStr} (h : ∀ c ∈ t, c ≠ 0xad) : noShy (convOf I t) = convOf I t := by
  apply List.filter_eq_self.mpr
  intro x hx
  rcases convOf_chars hi x hx with h' | h'
  · simpa using (az_facts h').2.1
  · simpa using norm_noShy h x h'

theorem word_noApos {t : PyStr} (h : ∀ c ∈ t, isWord c = true) : noApos t = true := by
  unfold noApos
  rw [List.all_eq_true]
  intro c hc
  have := h c hc
  have h1 : c ≠ 0x27 := by rintro rfl; revert this; decide +kernel
  have h2 : c ≠ 0x2019 := by rintro rfl; revert this; decide +kernel
  simp [h1, h2]

theorem noApos_of {s : PyStr} (h : 0x27 ∉ s ∧ 0x2019 ∉ s) : noApos s = true := by
  unfold noApos
  rw [List.all_eq_true]
  intro c hc
  have h1 : c ≠ 0x27 := fun e => h.1 (e ▸ hc)
  have h2 : c ≠ 0x2019 := fun e => h.2 (e ▸ hc)
  simp [h1, h2]

theorem nonsep_word {l t : PyStr} (hhi : l ≠ u!"hi") (h : ∀ c ∈ t, sepChar l c = false) : ∀ c ∈ t, isWord c = true := by
  intro c hc
  have := h c hc
  rw [sepChar_nonhi hhi] at this; simpa using this

theorem nonsep_solid {l t : PyStr} (h : ∀ c ∈ t, sepChar l c = false) : ∀ c ∈ t, isSpace c = false := by
  intro c hc
  by_cases hhi : l = u!"hi"
  · rw [← sepChar_hi hhi]; exact h c hc
  · exact word_not_space (nonsep_word hhi h c hc)

theorem nonsep_noApos {l s t : PyStr} (hhi : l ≠ u!"hi" ∨ noApos s = true) (ht : t ∈ tokenize s l)
    (h : ∀ c ∈ t, sepChar l c = false) : noApos t = true := by
  rcases hhi with hhi | hhi
  · exact word_noApos (nonsep_word hhi h)
  · unfold noApos
    rw [List.all_eq_true]
    intro c hc
    exact List.all_eq_true.mp hhi c (List.mem_filter.mp (token_chars ht c hc)).1

theorem convOf_solid {I : Info} (hi : Tidy I) {t : PyStr} (h : ∀ c ∈ t, isSpace c = false) : ∀ c ∈ convOf I t, isSpace c = false := by
  intro c hc
  rcases convOf_chars hi c hc with h' | h'
  · exact word_not_space (az_word h')
  · exact norm_nonspace h c h'

/-- A word in ordinary writing that comes from a word token is found again. -/
theorem solid_again {I : Info} (hi : Tidy I) {l t : PyStr} (hs : ∀ c ∈ t, c ≠ 0xad) (hw : ∀ c ∈ t, sepChar l c = false)
    (ha : noApos t = true) (hp : ∀ c ∈ convOf I t, PlainChar c) (hb : blank (convOf I t) = false) :
    solid l (dropApos (convOf I t)) = [convOf I t] ∧ norm (hd l (noShy (dropApos (convOf I t)))) = convOf I t := by
  have hn : norm (convOf I t) = convOf I t := by
    rw [norm_of_stab (fun x hx => convOf_stab hi hx)]
    apply canonicalOrder_zero
    intro x hx
    exact (hp x ((mem_canonicalOrder _ _).mp hx)).1
  have hsep : ∀ c ∈ convOf I t, sepChar l c = false := by
    intro x hx
    by_cases hhi : l = u!"hi"
    · rw [sepChar_hi hhi]; exact convOf_solid hi (nonsep_solid hw) x hx
    have hw := nonsep_word hhi hw
    rw [sepChar_nonhi hhi]
    have hwx : isWord x = true := by
      rcases convOf_chars hi x hx with h | h
      · exact az_word h
      · have hm := (stab_iff.mp (norm_stab h)).2.2.2
        have := norm_wordish hw x h
        unfold wordish at this
        rw [hm] at this
        obtain ⟨_, h2, h3⟩ := hp x hx
        simpa [h2, h3] using this
    rw [hwx]; rfl
  rw [dropApos_noApos (convOf_noApos hi ha), solid_eq, convOf_noShy hi hs, sol_word l hsep hb, hd_word l hsep, List.map_singleton, hn,
    List.filter_cons, hb]
  exact ⟨rfl, rfl⟩

/-- The tokens of a text -/
theorem token_kinds {l s t : PyStr} (ht : t ∈ tokenize s l) :
    (∀ c ∈ t, sepChar l c = false) ∨ BlankForm t ∨ (l ≠ u!"hi" ∧ ∃ c, t = [c] ∧ isWord c = false ∧ isSpace c = false) := by
  rcases token_shape ht with h | h | h
  · exact Or.inl (fun c hc => (h c hc).1)
  · exact Or.inr (Or.inl ((blankForm_iff t).mpr (blank_norm ((blank_spec t).mpr h))))
  · exact Or.inr (Or.inr h)

theorem single_conv {I : Info} {c : Nat} (hc : isWord c = false) : convOf I [c] = norm [c] ∧ irregular (norm [c]) = norm [c] ∧
    ∀ x ∈ norm [c], isWord x = false := by
  have hnonw : ∀ x ∈ norm [c], isWord x = false := norm_nonword (by simpa using hc)
  have hno : ∀ x ∈ norm [c], isAz x = false := by
    intro x hx
    cases hz : isAz x with
    | false => rfl
    | true => have := hnonw x hx; rw [az_word hz] at this; cases this
  refine ⟨conv_noletters _ hno, ?_, hnonw⟩
  rcases irregular_cases (norm [c]) with h | ⟨p, hp, a, b, h⟩
  · exact h
  · exfalso
    have key : ∀ p ∈ irregulars, ∃ c ∈ p.2, isAz c = true := by decide
    obtain ⟨x, hx, hz⟩ := key p hp
    have hm : x ∈ irregular (norm [c]) := by rw [h]; simp [hx]
    rcases irregular_chars _ x hm with _ | h'
    · -- the letters of the replacement would have to come from somewhere
      have hnoirr : irregular (norm [c]) = norm [c] := by
        have : convOf I [c] = norm [c] := conv_noletters _ hno
        have hI := conv_noletters (mkLangData ⟨[], [], [], [], [], [], false⟩) hno
        have : (isNumberToken (norm [c]) (mkLangData ⟨[], [], [], [], [], [], false⟩)).isSome = false := by
          unfold isNumberToken isCardinalToken; rfl
        rw [← conv_other this, hI]
      rw [hnoirr] at hm
      rw [hno x hm] at hz; cases hz
    · rw [hno x h'] at hz; cases hz

/-- The tokens that stand for a number word -/
theorem pieceOf_number {I : Info} (hi : Plain I) {l s t c : PyStr} (hhi : l ≠ u!"hi" ∨ noApos s = true) (ht : t ∈ tokenize s l)
    (h : StandsForOf I (irregular (form t)) c) :
    solid l (dropApos (convOf I t)) = [c] ∧ norm (hd l (noShy (dropApos (convOf I t)))) = c := by
  have hn : isNumberToken (norm t) (mkLangData I) = some c := (numberTokenOf_iff hi.toTidy).mpr h
  have hc := numberToken_convOf hn
  have hl := stands_listed h
  rcases token_kinds ht with hw | hb | ⟨_, x, rfl, hx, _⟩
  · have := solid_again hi.toTidy (I := I) (token_noShy ht) hw (nonsep_noApos hhi ht hw) (by rw [hc]; exact hi.wordPlain c hl)
      (by rw [hc]; exact listed_blank hi.toTidy hl)
    rw [hc] at this
    rw [hc]; exact this
  · exfalso
    rw [blank_noNumber hi.toTidy ((blankForm_iff t).mp hb)] at hn; cases hn
  · exfalso
    obtain ⟨e, _, hnw⟩ := single_conv (I := I) hx
    obtain ⟨y, hy, hyw⟩ := hi.wordLetter c hl
    rw [← hc, e] at hy
    rw [hnw y hy] at hyw; cases hyw

theorem sol_single {l g : PyStr} {x : Nat} (hhi : l ≠ u!"hi") (hx : x ∈ g) (hw : isWord x = false) (hs : isSpace x = false)
    (hst : stab x = true) : [x] ∈ ((sol l g).map norm).filter (fun t => !blank t) := by
  have h1 : sepChar l x = true := by rw [sepChar_nonhi hhi, hw]; rfl
  have hn : norm [x] = [x] := by
    rw [norm_of_stab (fun y hy => by rw [List.mem_singleton] at hy; subst hy; exact hst)]; rfl
  have hbx : blank [x] = false := not_blank_of_mem (c := x) (by simp) hs
  obtain ⟨a, b, e⟩ := List.append_of_mem hx
  rw [List.mem_filter]
  refine ⟨List.mem_map.mpr ⟨[x], ?_, hn⟩, by rw [hbx]; rfl⟩
  rw [e, sol_append_sep l a b h1]
  refine List.mem_append.mpr (Or.inr (List.mem_append.mpr (Or.inl ?_)))
  rw [sol_eq]
  simp [hd_cons, stl_cons, h1, hs]

/-- The conjunctions -/
theorem pieceOf_skip {I : Info} (hi : Plain I) {l s t : PyStr} (hhi : l ≠ u!"hi" ∨ noApos s = true) (ht : t ∈ tokenize s l)
    (h : irregular (form t) ∈ I.skipTokens) :
    solid l (dropApos (convOf I t)) = [irregular (form t)] ∧
    ((∀ c ∈ t, sepChar l c = false) → norm (hd l (noShy (dropApos (convOf I t)))) = irregular (form t)) := by
  have hn : isNumberToken (norm t) (mkLangData I) = none := by
    cases hn : isNumberToken (norm t) (mkLangData I) with
    | none => rfl
    | some c => exact absurd ((numberTokenOf_iff hi.toTidy).mp hn) (hi.conjunctionStands _ h c)
  have hc : convOf I t = irregular (form t) := conv_other (by rw [hn]; rfl)
  have hb := blank_false (hi.conjunctionNotBlank _ h)
  have word : (∀ c ∈ t, sepChar l c = false) → solid l (dropApos (convOf I t)) = [irregular (form t)] ∧
      norm (hd l (noShy (dropApos (convOf I t)))) = irregular (form t) := by
    intro hw
    have := solid_again hi.toTidy (I := I) (token_noShy ht) hw (nonsep_noApos hhi ht hw) (by rw [hc]; exact hi.conjunctionPlain _ h)
      (by rw [hc]; exact hb)
    rw [hc] at this
    rw [hc]; exact this
  refine ⟨?_, fun hw => (word hw).2⟩
  rcases token_kinds ht with hw | hb' | ⟨hhi, x, rfl, hx, _⟩
  · exact (word hw).1
  · exfalso
    rw [← hc, convOf_blank hi.toTidy, (blankForm_iff t).mp hb'] at hb; cases hb
  · obtain ⟨e, e2, hnw⟩ := single_conv (I := I) hx
    rcases hi.conjunctionLetter _ h with e3 | ⟨y, hy, hyw⟩
    · rw [hc, e3]
      have hsp : solid l u!"-" = [u!"-"] := by
        rw [solid_eq]
        have h1 : sepChar l 0x2d = true := by rw [sepChar_nonhi hhi]; decide +kernel
        have h2 : sol l u!"-" = [u!"-"] := by
          rw [sol_eq]
          simp [hd_cons, stl_cons, h1]
          decide
        show ((sol l u!"-").map norm).filter _ = _
        rw [h2]; decide +kernel
      exact hsp
    · exfalso
      rw [show irregular (form [x]) = norm [x] from e2] at hy
      rw [hnw y hy] at hyw; cases hyw

theorem pieceOf_blank {I : Info} {l t : PyStr} (h : BlankForm t) : convOf I t = norm t ∧ solid l (dropApos (convOf I t)) = [] ∧
    hd l (noShy (dropApos (convOf I t))) = [] := by
  rw [blankForm_iff] at h
  have : convOf I t = norm t := conv_blank _ h
  rw [this]; exact ⟨rfl, solid_blank h, hd_nil_blank h⟩

theorem pieceOf_apos {I : Info} {l t : PyStr} (h : Apostrophe t) : convOf I t = t ∧ dropApos (convOf I t) = [] ∧
    solid l (dropApos (convOf I t)) = [] ∧ hd l (noShy (dropApos (convOf I t))) = [] := by
  have hc : convOf I t = t := by
    rcases h with rfl | rfl
    · rw [(single_conv (I := I) (c := 0x27) (by decide +kernel)).1]; decide +kernel
    · rw [(single_conv (I := I) (c := 0x2019) (by decide +kernel)).1]; decide +kernel
  have h2 : dropApos t = [] := by rcases h with rfl | rfl <;> rfl
  rw [hc, h2]
  exact ⟨rfl, rfl, solid_blank (t := []) rfl, hd_nil l⟩

theorem plain_ccc {I : Info} (hi : Plain I) {t : PyStr} (h : numOrSkip (mkLangData I) t = true) : ∀ c ∈ t, ccc c = 0 := by
  unfold numOrSkip at h
  rw [Bool.or_eq_true] at h
  rcases h with h | h
  · exact fun c hc => (hi.wordPlain t (all_listed.mp h) c hc).1
  · exact fun c hc => (hi.conjunctionPlain t (skip_mem.mp h) c hc).1

theorem plain_single {I : Info} (hi : Plain I) {c : Nat} (h : numOrSkip (mkLangData I) [c] = true) (hc : isWord c = false) : c = 0x2d := by
  unfold numOrSkip at h
  rw [Bool.or_eq_true] at h
  rcases h with h | h
  · obtain ⟨x, hx, hw⟩ := hi.wordLetter [c] (all_listed.mp h)
    rw [List.mem_singleton] at hx; subst hx; rw [hc] at hw; cases hw
  · rcases hi.conjunctionLetter [c] (skip_mem.mp h) with e | ⟨x, hx, hw⟩
    · injection e
    · rw [List.mem_singleton] at hx; subst hx; rw [hc] at hw; cases hw

/-- The other tokens -/
theorem pieceOf_other {I : Info} (hi : Plain I) {l s t : PyStr} (hhi : l ≠ u!"hi" ∨ noApos s = true) (ht : t ∈ tokenize s l)
    (h1 : ∀ c, ¬ StandsForOf I (irregular (form t)) c) (h2 : ¬ BlankForm t) (h3 : ¬ Apostrophe t) (h4 : irregular (form t) ∉ I.skipTokens) :
    ∃ x ∈ solid l (dropApos (convOf I t)), numOrSkip (mkLangData I) x = false := by
  have hn : isNumberToken (norm t) (mkLangData I) = none := by
    cases hn : isNumberToken (norm t) (mkLangData I) with
    | none => rfl
    | some c => exact absurd ((numberTokenOf_iff hi.toTidy).mp hn) (h1 c)
  have hcv : convOf I t = irregular (norm t) := conv_other (by rw [hn]; rfl)
  have hkey : (mkLangData I).allNumbers.mem (irregular (norm t)) = false := by
    rw [← hcv]
    unfold isNumberToken isCardinalToken at hn
    split at hn
    · cases hn
    · rename_i h; simpa using h
  have hskip : isSkipToken (irregular (norm t)) (mkLangData I) = false := by
    cases h : isSkipToken (irregular (norm t)) (mkLangData I) with
    | false => rfl
    | true => exact absurd (skip_mem.mp h) h4
  have hnos : numOrSkip (mkLangData I) (irregular (norm t)) = false := by unfold numOrSkip; rw [hkey, hskip]; rfl
  have hbn : blank (norm t) = false := by
    cases h : blank (norm t) with
    | false => rfl
    | true => exact absurd ((blankForm_iff t).mpr h) h2
  have hbl : blank (irregular (norm t)) = false := by rw [irregular_blank]; exact hbn
  have hstab : ∀ x ∈ irregular (norm t), stab x = true := fun x hx => piece_stab hx
  have ha : noApos t = true := by
    rcases token_kinds ht with hw | hb | ⟨_, x, rfl, hx, _⟩
    · exact nonsep_noApos hhi ht hw
    · exact absurd hb h2
    · unfold noApos
      have e1 : x ≠ 0x27 := by rintro rfl; exact h3 (Or.inl rfl)
      have e2 : x ≠ 0x2019 := by rintro rfl; exact h3 (Or.inr rfl)
      simp [e1, e2]
  rw [hcv, solid_eq, piece_clean (token_noShy ht) ha]
  by_cases hsep : ∃ x ∈ irregular (norm t), sepChar l x = true
  · have single : ∀ x ∈ irregular (norm t), isWord x = false → isSpace x = false → numOrSkip (mkLangData I) [x] = false →
        l ≠ u!"hi" → ∃ y ∈ ((sol l (irregular (norm t))).map norm).filter (fun t => !blank t), numOrSkip (mkLangData I) y = false :=
      fun x hx h1 h2 h3 hhi => ⟨[x], sol_single hhi hx h1 h2 (hstab x hx), h3⟩
    rcases token_kinds ht with hw | hb | ⟨hhi, c, rfl, hc, hcs⟩
    · obtain ⟨x, hx, hxs⟩ := hsep
      have hhi : l ≠ u!"hi" := by
        intro hl
        rw [sepChar_hi hl] at hxs
        rcases piece_chars hx with h | h
        · rw [word_not_space (az_word h)] at hxs; cases hxs
        · rw [norm_nonspace (nonsep_solid hw) x h] at hxs; cases hxs
      have hw := nonsep_word hhi hw
      have hnw : isWord x = false := by rw [sepChar_nonhi hhi] at hxs; simpa using hxs
      have hm := (stab_iff.mp (hstab x hx)).2.2.2
      have hx' : x ∈ norm t := (piece_chars hx).resolve_left (fun h => by rw [az_word h] at hnw; cases hnw)
      have := norm_wordish hw x hx'
      unfold wordish at this
      rw [hnw, hm] at this
      have : x = 0xbd7 ∨ x = 0x1b35 := by simpa using this
      refine single x hx hnw ?_ ?_ hhi
      · rcases this with rfl | rfl <;> decide
      · cases hn : numOrSkip (mkLangData I) [x] with
        | false => rfl
        | true =>
          have := plain_single hi hn hnw
          omega
    · exact absurd hb h2
    · obtain ⟨_, e2, hnonw⟩ := single_conv (I := I) hc
      obtain ⟨c0, hc0, hs0⟩ := solid_of hbn
      refine single c0 (by rw [e2]; exact hc0) (hnonw c0 hc0) hs0 ?_ hhi
      cases hn : numOrSkip (mkLangData I) [c0] with
      | false => rfl
      | true =>
        exfalso
        have he := plain_single hi hn (hnonw c0 hc0)
        have hc : c = 0x2d := by
          apply Classical.byContradiction
          intro hne
          exact norm_noHyphen (t := [c]) (by simpa using hne) c0 hc0 he
        subst hc he
        rw [e2, show norm [0x2d] = [0x2d] by decide +kernel, hn] at hnos
        cases hnos
  · have hsep' : ∀ x ∈ irregular (norm t), sepChar l x = false := fun x hx => by
      cases h : sepChar l x with
      | false => rfl
      | true => exact absurd ⟨x, hx, h⟩ hsep
    rw [sol_word l hsep' hbl]
    refine ⟨norm (irregular (norm t)), ?_, ?_⟩
    · rw [List.mem_filter]
      refine ⟨by simp, ?_⟩
      obtain ⟨y, hy, hys⟩ := solid_of hbl
      rw [norm_of_stab hstab, not_blank_of_mem ((mem_canonicalOrder _ _).mpr hy) hys]; rfl
    · cases hn : numOrSkip (mkLangData I) (norm (irregular (norm t))) with
      | false => rfl
      | true =>
        have hz := plain_ccc hi hn
        rw [norm_of_stab hstab] at hz hn
        rw [canonicalOrder_zero hz, hnos] at hn
        cases hn

/-! ### All tokens -/

theorem kinds_entry {I : Info} (hi : Sensible I) {k : Class} {v : Nat} {c : PyStr} (hw : LastEntry (tableOf I k) c v) :
    kinds (mkLangData I) [c] = [kindOfClass k v] ∧ numOrSkip (mkLangData I) c = true := by
  have hl := last_lists hw
  have hb : blank c = false := blank_false (hi.wordNotBlank k _ hl)
  have hs : (mkLangData I).skipTokens.elem c = false := by
    cases hs : (mkLangData I).skipTokens.elem c with
    | false => rfl
    | true => exact absurd (List.elem_iff.mp hs) (hi.noConjunction k _ hl)
  have : symOf (mkLangData I) c = some (.num (kindOfClass k v)) := by
    unfold symOf; rw [hb, hs, kindOf_entry hi hw]; rfl
  constructor
  · unfold kinds
    rw [List.filterMap_cons, this]; rfl
  · unfold numOrSkip; rw [all_listed.mpr ⟨k, hl⟩]; rfl

theorem kinds_conj {I : Info} (hi : Sensible I) {f : PyStr} (h : f ∈ I.skipTokens) :
    kinds (mkLangData I) [f] = [] ∧ numOrSkip (mkLangData I) f = true := by
  have h2 : (mkLangData I).skipTokens.elem f = true := List.elem_iff.mpr h
  have : symOf (mkLangData I) f = some (.skip f) := by
    unfold symOf; rw [h2, blank_false (hi.conjunctionNotBlank f h)]; rfl
  constructor
  · unfold kinds
    rw [List.filterMap_cons, this]; rfl
  · unfold numOrSkip; rw [skip_mem.mpr h, Bool.or_true]

theorem onlyOrdinalsOf_pos {I : Info} (hi : Sensible I) {ts : List PyStr} {ws : List (Class × Nat)} (h : OnlyOrdinalsOf I ts ws) :
    PosScale ws := by
  induction h with
  | nil => intro p hp; simp at hp
  | @word t c k v ts ws _ hw _ ih =>
    intro p hp
    rcases List.mem_cons.mp hp with hp | hp
    · obtain ⟨rfl, rfl⟩ := Prod.mk.inj hp
      rcases Nat.eq_zero_or_pos p with rfl | h0
      · exact absurd hw (hi.scaleNotZero _)
      · exact h0
    · exact ih p hp
  | other _ _ ih => exact ih

/-- The tokens of the joined text -/
abbrev piecesOf (I : Info) (l : PyStr) (ts : List PyStr) : List PyStr := ts.flatMap (fun t => solid l (dropApos (convOf I t)))

theorem onlyOrdinalsOf_kinds {I : Info} (hi : Plain I) {l s : PyStr} (hhi : l ≠ u!"hi" ∨ noApos s = true) {ts : List PyStr} (hts : ∀ t ∈ ts, t ∈ tokenize s l)
    {ws : List (Class × Nat)} (h : OnlyOrdinalsOf I ts ws) :
    kinds (mkLangData I) (piecesOf I l ts) = kindsOf ws ∧ (piecesOf I l ts).all (numOrSkip (mkLangData I)) = true := by
  induction h with
  | nil => exact ⟨rfl, rfl⟩
  | @word t c k v ts ws hc hw h ih =>
    have ih := ih (fun x hx => hts x (List.mem_cons_of_mem _ hx))
    obtain ⟨e1, e2⟩ := kinds_entry hi.toSensible hw
    unfold piecesOf at *
    rw [List.flatMap_cons, kinds_append, List.all_append, (pieceOf_number hi hhi (hts t (by simp)) hc).1, e1, ih.1, ih.2]
    exact ⟨rfl, by simp [e2]⟩
  | @other t ts ws ht h ih =>
    have ih := ih (fun x hx => hts x (List.mem_cons_of_mem _ hx))
    unfold piecesOf at *
    rw [List.flatMap_cons, kinds_append, List.all_append]
    rcases ht with ht | ht | ht
    · rw [(pieceOf_blank ht).2.1, ih.1, ih.2]; exact ⟨rfl, rfl⟩
    · rw [(pieceOf_apos ht).2.2.1, ih.1, ih.2]; exact ⟨rfl, rfl⟩
    · obtain ⟨e1, e2⟩ := kinds_conj hi.toSensible ht
      rw [(pieceOf_skip hi hhi (hts t (by simp)) ht).1, e1, ih.1, ih.2]
      exact ⟨rfl, by simp [e2]⟩

theorem onlyOrdinalsOf_of {I : Info} (hi : Plain I) {l s : PyStr} (hhi : l ≠ u!"hi" ∨ noApos s = true) {ts : List PyStr} (hts : ∀ t ∈ ts, t ∈ tokenize s l)
    (h : (piecesOf I l ts).all (numOrSkip (mkLangData I)) = true) : ∃ ws, OnlyOrdinalsOf I ts ws := by
  induction ts with
  | nil => exact ⟨[], .nil⟩
  | cons t ts ih =>
    unfold piecesOf at *
    rw [List.flatMap_cons, List.all_append, Bool.and_eq_true] at h
    obtain ⟨ws, hws⟩ := ih (fun x hx => hts x (List.mem_cons_of_mem _ hx)) h.2
    by_cases c1 : ∃ c, StandsForOf I (irregular (form t)) c
    · obtain ⟨c, hc⟩ := c1
      obtain ⟨k, hk⟩ := stands_listed hc
      obtain ⟨v, hv⟩ := lists_last hk
      exact ⟨_, .word hc hv hws⟩
    by_cases c2 : BlankForm t ∨ Apostrophe t ∨ irregular (form t) ∈ I.skipTokens
    · exact ⟨ws, .other c2 hws⟩
    exfalso
    obtain ⟨x, hx, hxn⟩ := pieceOf_other hi hhi (hts t (by simp)) (fun c hc => c1 ⟨c, hc⟩) (fun h => c2 (Or.inl h))
      (fun h => c2 (Or.inr (Or.inl h))) (fun h => c2 (Or.inr (Or.inr h)))
    rw [List.all_eq_true.mp h.1 x hx] at hxn; cases hxn

theorem parseOrdinalWith_join {I : Info} {l s : PyStr} :
    parseOrdinalWith (mkLangData I) s l = parseNumberWith (mkLangData I) (join u!" " ((tokenize s l).map (convOf I))) l := by
  unfold parseOrdinalWith
  simp only [normalizeTokens, List.map_map]
  rfl

theorem convOf_shape {I : Info} (hi : Tidy I) {l s t : PyStr} (ht : t ∈ tokenize s l) :
    blank (convOf I t) = true ∨ ∀ c ∈ convOf I t, sepChar u!"hi" c = false := by
  have key : (∀ c ∈ t, isSpace c = false) → ∀ c ∈ convOf I t, sepChar u!"hi" c = false := by
    intro h c hc
    rw [hi_sep]; exact convOf_solid hi h c hc
  rcases token_kinds ht with h | h | ⟨_, c, rfl, _, hc⟩
  · exact Or.inr (key (nonsep_solid h))
  · left
    rw [convOf_blank hi]
    exact (blankForm_iff t).mp h
  · exact Or.inr (key (by simpa using hc))

theorem convOf_numeric {I : Info} (hi : Plain I) {t : PyStr} (h : ∀ c ∈ convOf I t, isNumericChar c = true) : convOf I t = norm t := by
  cases hn : isNumberToken (norm t) (mkLangData I) with
  | some c =>
    exfalso
    obtain ⟨x, hx, h1⟩ := hi.wordNotNumeric c (stands_listed ((numberTokenOf_iff hi.toTidy).mp hn))
    rw [← numberToken_convOf hn] at hx
    rw [h x hx] at h1; cases h1
  | none =>
    have e : convOf I t = irregular (norm t) := conv_other (by rw [hn]; rfl)
    rcases irregular_cases (norm t) with h' | ⟨p, hp, a, b, h'⟩
    · rw [e, h']
    · exfalso
      have key : ∀ p ∈ irregulars, ∃ c ∈ p.2, isNumericChar c = false := by decide +kernel
      obtain ⟨c, hc, hcn⟩ := key p hp
      have := h c (by rw [e, h']; simp [hc])
      rw [hcn] at this; cases this

/-- When the joined text is word input. -/
theorem wordInputOf_join {I : Info} (hi : Plain I) {l s : PyStr} (h1 : ∃ t ∈ tokenize s l, ¬ BlankForm t)
    (h2 : ¬ SingleNumeral (tokenize s l)) : WordInput (join u!" " ((tokenize s l).map (convOf I))) := by
  constructor
  · intro hb
    obtain ⟨t, ht, hbt⟩ := h1
    have := (blank_join _).mp ((blank_spec _).mpr hb) (convOf I t) (List.mem_map.mpr ⟨t, ht, rfl⟩)
    rw [convOf_blank hi.toTidy] at this
    exact hbt ((blankForm_iff t).mpr this)
  · intro hn
    obtain ⟨g, hg, hgn⟩ := (numericText_sol _).mp hn
    rw [sol_join_words _ _ (by
      intro g hg
      obtain ⟨t, ht, rfl⟩ := List.mem_map.mp hg
      exact convOf_shape hi.toTidy ht)] at hg
    obtain ⟨u, v, e, hu, _, hv⟩ := List.filter_eq_cons_iff.mp hg
    obtain ⟨a, b', e1, rfl, e2⟩ := List.map_eq_append_iff.mp e
    obtain ⟨t, b, rfl, rfl, rfl⟩ := List.map_eq_cons_iff.mp e2
    have hv := List.filter_eq_nil_iff.mp hv
    have hbt : blank (convOf I t) = false := by
      have : convOf I t ∈ ((tokenize s l).map (convOf I)).filter (fun g => !blank g) := by rw [hg]; simp
      simpa using (List.mem_filter.mp this).2
    have he := convOf_numeric hi hgn
    apply h2
    have bl : ∀ x, (convOf I x ∈ a.map (convOf I) ∨ convOf I x ∈ b.map (convOf I)) → BlankForm x := by
      intro x hx
      rw [blankForm_iff, ← convOf_blank hi.toTidy]
      rcases hx with hx | hx
      · simpa using hu _ hx
      · simpa using hv _ hx
    refine ⟨a, t, b, e1, fun x hx => bl x (Or.inl (List.mem_map.mpr ⟨x, hx, rfl⟩)), fun x hx => bl x (Or.inr (List.mem_map.mpr ⟨x, hx, rfl⟩)), ?_, ?_⟩
    · intro h0
      have h0 : norm t = [] := h0
      rw [he, h0] at hbt; cases hbt
    · show ∀ c ∈ norm t, _
      rw [← he]; exact hgn

/-- What matters of the tokens -/
theorem onlyWordsOf_forms {I : Info} (hi : Sensible I) {ts : List PyStr} {n : Nat} :
    (∃ ws, OnlyWordsOf I ts ws ∧ ReadAs I ws n) ↔ (formsOf ts).all (numOrSkip (mkLangData I)) = true ∧
      ∃ r, runR (mkLangData I).maximumGroupValue (kinds (mkLangData I) (formsOf ts)) RState.init = some r ∧ r.value = n := by
  constructor
  · rintro ⟨ws, hws, hr⟩
    obtain ⟨h1, h2⟩ := onlyWordsOf_kinds hi hws
    rw [h1]
    exact ⟨h2, (readAs_run (onlyWordsOf_pos hi hws)).mp hr⟩
  · rintro ⟨h1, h2⟩
    obtain ⟨ws, hws⟩ := onlyWordsOf_of h1
    rw [(onlyWordsOf_kinds hi hws).1] at h2
    exact ⟨ws, hws, (readAs_run (onlyWordsOf_pos hi hws)).mpr h2⟩

theorem onlyOrdinalsOf_forms {I : Info} (hi : Plain I) {l s : PyStr} (hhi : l ≠ u!"hi" ∨ noApos s = true) {ts : List PyStr} (hts : ∀ t ∈ ts, t ∈ tokenize s l) {n : Nat} :
    (∃ ws, OnlyOrdinalsOf I ts ws ∧ ReadAs I ws n) ↔ (piecesOf I l ts).all (numOrSkip (mkLangData I)) = true ∧
      ∃ r, runR (mkLangData I).maximumGroupValue (kinds (mkLangData I) (piecesOf I l ts)) RState.init = some r ∧ r.value = n := by
  constructor
  · rintro ⟨ws, hws, hr⟩
    obtain ⟨h1, h2⟩ := onlyOrdinalsOf_kinds hi hhi hts hws
    rw [h1]
    exact ⟨h2, (readAs_run (onlyOrdinalsOf_pos hi.toSensible hws)).mp hr⟩
  · rintro ⟨h1, h2⟩
    obtain ⟨ws, hws⟩ := onlyOrdinalsOf_of hi hhi hts h1
    rw [(onlyOrdinalsOf_kinds hi hhi hts hws).1] at h2
    exact ⟨ws, hws, (readAs_run (onlyOrdinalsOf_pos hi.toSensible hws)).mpr h2⟩

/-- `parse_ordinal` in terms of the rules. -/
theorem parseOrdinalWith_reads {I : Info} (hi : Plain I) {l s : PyStr} (hhi : l ≠ u!"hi" ∨ noApos s = true) {t : PyStr} {ts : List PyStr}
    (hts : Tokens l s (t :: ts)) (h1 : ∃ x ∈ t :: ts, ¬ BlankForm x) (h2 : ¬ SingleNumeral (t :: ts)) (n : Nat) :
    parseOrdinalWith (mkLangData I) s l = .ok (some n) ↔
      irregular (form t) ∉ I.skipTokens ∧ n < 10 ^ 4300 ∧ ∃ ws, OnlyOrdinalsOf I (t :: ts) ws ∧ ReadAs I ws n := by
  rw [tokens_iff] at hts
  rw [hts] at h1 h2
  have hwi := wordInputOf_join hi h1 h2
  rw [parseOrdinalWith_join]
  rw [← hts] at hwi ⊢
  have htm : ∀ x ∈ t :: ts, x ∈ tokenize s l := fun x hx => by rw [← hts]; exact hx
  have hh := hd_join l (convOf I t) (ts.map (convOf I))
  have hj := solid_join l ((t :: ts).map (convOf I))
  rw [List.flatMap_map] at hj
  rw [← List.map_cons] at hh
  generalize join u!" " ((t :: ts).map (convOf I)) = j at *
  obtain ⟨t', ts', hts'⟩ : ∃ t' ts', tokenize (withoutApostrophes j) l = t' :: ts' := by
    rw [tokenize_eq, split_cons]; exact ⟨_, _, rfl⟩
  have ht' : t' = hd l (noShy (dropApos j)) := by
    rw [tokenize_eq, split_cons, ← dropApos_eq] at hts'
    injection hts' with h; exact h.symm
  have hforms : formsOf (t' :: ts') = piecesOf I l (t :: ts) := by
    rw [← hts', ← dropApos_eq]; exact hj
  rw [parseNumberWith_reads hi.toSensible hwi ((tokens_iff _ _ _).mpr hts'.symm), onlyWordsOf_forms hi.toSensible, hforms,
    ← onlyOrdinalsOf_forms hi hhi htm]
  have hnil : norm [] ∉ I.skipTokens := by
    intro h
    obtain ⟨c, hc, _⟩ := hi.conjunctionNotBlank _ h
    cases hc
  have hw : ∀ c ∈ t, sepChar l c = false := by
    have : t = hd l (noShy s) := by
      rw [tokenize_eq, split_cons] at hts
      injection hts
    intro c hc
    rw [this] at hc
    exact hd_chars l _ c hc
  constructor
  · rintro ⟨h1, h2, h3⟩
    refine ⟨fun h => h1 ?_, h2, h3⟩
    rw [ht', hh]
    show norm _ ∈ _
    rw [(pieceOf_skip hi hhi (htm t (by simp)) h).2 hw]; exact h
  · rintro ⟨h1, h2, ws, hws, hr⟩
    refine ⟨?_, h2, ws, hws, hr⟩
    rw [ht', hh]
    show norm _ ∉ _
    cases hws with
    | word hc hv _ =>
      rw [(pieceOf_number hi hhi (htm t (by simp)) hc).2]
      exact hi.noConjunction _ _ (last_lists hv)
    | other hb _ =>
      rcases hb with hb | hb | hb
      · rw [(pieceOf_blank hb).2.2]; exact hnil
      · rw [(pieceOf_apos hb).2.2.2]; exact hnil
      · exact absurd hb h1

/-- All tokens blank. -/
theorem parseOrdinalWith_blankForms {I : Info} (hi : Tidy I) {l s : PyStr} (h : ∀ t ∈ tokenize s l, BlankForm t) :
    parseOrdinalWith (mkLangData I) s l = .ok none := by
  rw [parseOrdinalWith_join]
  have : blank (join u!" " ((tokenize s l).map (convOf I))) = true := by
    rw [blank_join]
    intro g hg
    obtain ⟨t, ht, rfl⟩ := List.mem_map.mp hg
    rw [convOf_blank hi]; exact (blankForm_iff t).mp (h t ht)
  unfold parseNumberWith
  rw [this]; rfl

theorem parseNumberWith_numeric {ld : LangData} {l s : PyStr} (h : NumericText s) : parseNumberWith ld s l = (pyInt s).map some := by
  unfold parseNumberWith
  rw [numericText_not_blank h, (numericText_iff s).mp h]
  simp only [Bool.false_eq_true, if_false, if_true, bind, Except.bind, pure, Except.pure]
  cases pyInt s <;> rfl

/-- A single numeral. -/
theorem parseOrdinalWith_numeral {I : Info} {l s : PyStr} (h : SingleNumeral (tokenize s l)) :
    parseOrdinalWith (mkLangData I) s l = (pyInt (spaced ((tokenize s l).map norm))).map some := by
  obtain ⟨a, t, b, e, ha, hb, hne, hn⟩ := h
  have hn : ∀ c ∈ norm t, isNumericChar c = true := hn
  have hct : convOf I t = norm t := by
    apply conv_noletters
    intro c hc
    cases hz : isAz c with
    | false => rfl
    | true => have := hn c hc; rw [(az_facts hz).2.2.2] at this; cases this
  have hmap : (tokenize s l).map (convOf I) = (tokenize s l).map norm := by
    rw [e, List.map_append, List.map_append, List.map_cons, List.map_cons, hct]
    congr 1
    · exact List.map_congr_left (fun x hx => (pieceOf_blank (l := l) (ha x hx)).1)
    · congr 1
      exact List.map_congr_left (fun x hx => (pieceOf_blank (l := l) (hb x hx)).1)
  rw [parseOrdinalWith_join, hmap, join_spaced]
  apply parseNumberWith_numeric
  obtain ⟨x, y, e1, e2, e3⟩ := join_mid (u := a.map norm) (v := b.map norm) (t := norm t)
  rw [← join_spaced, e, List.map_append, List.map_cons]
  refine ⟨x, norm t, y, e1, ?_, ?_, hne, hn⟩
  · intro c hc
    rcases e2 c hc with rfl | ⟨z, hz, hcz⟩
    · decide
    · obtain ⟨w, hw, rfl⟩ := List.mem_map.mp hz
      exact ha w hw c hcz
  · intro c hc
    rcases e3 c hc with rfl | ⟨z, hz, hcz⟩
    · decide
    · obtain ⟨w, hw, rfl⟩ := List.mem_map.mp hz
      exact hb w hw c hcz

/-! ### Errors -/

/-- With moderate values `parse_number` raises nothing for word input. -/
theorem parseNumberWith_returns {I : Info} (hi : Tidy I) (hm : Moderate I) {l s : PyStr} (hs : WordInput s) :
    ∃ r, parseNumberWith (mkLangData I) s l = .ok r := by
  obtain ⟨hb, hn⟩ := (wordInput_iff s).mp hs
  unfold parseNumberWith
  simp only [hb, hn, Bool.false_eq_true, if_false, replace_apos]
  generalize normalizeTokens (tokenize (dropApos s) l) = ts
  by_cases hok : tokensOk (mkLangData I) 0 ts = true
  · rw [if_pos hok]
    have hall : ∀ t ∈ ts, TokOK (mkLangData I) t := by
      intro t ht
      cases ts with
      | nil => cases ht
      | cons a ts =>
        rw [tokensOk_first hi.toSensible, Bool.and_eq_true] at hok
        have := List.all_eq_true.mp hok.2 t ht
        simp only [tokOkB, Bool.or_eq_true] at this
        rcases this with (h | h) | h
        · exact Or.inr (Or.inr h)
        · exact Or.inl h
        · exact Or.inr (Or.inl h)
    have hbld := (moderate_builds hi hm).build ts hall
    obtain ⟨is, m, hlast⟩ := buildItems_last (mkLangData I) ts
    rw [hbld]
    cases is with
    | cons j js =>
      rw [hlast]
      cases js <;> exact ⟨none, rfl⟩
    | nil =>
      rw [hlast]
      have h1 : (buildItems (mkLangData I) ts).mapM renderItem = .ok ((buildItems (mkLangData I) ts).map renderPure) := hbld
      rw [hlast, List.nil_append, List.mapM_cons] at h1
      cases h2 : renderItem (.num m) with
      | error e => rw [h2] at h1; cases h1
      | ok x =>
        obtain ⟨hlt, _⟩ := strInt_iff.mp h2
        refine ⟨some m, ?_⟩
        simp only [List.nil_append, List.map_cons, List.map_nil, bind, Except.bind, pure, Except.pure, renderPure, pyInt_decDigits hlt]
  · rw [if_neg hok]; exact ⟨none, rfl⟩

/-- So does `parse_ordinal` unless the text is a single numeral. -/
theorem parseOrdinalWith_returns {I : Info} (hi : Plain I) (hm : Moderate I) {l s : PyStr}
    (h2 : ¬ SingleNumeral (tokenize s l)) : ∃ r, parseOrdinalWith (mkLangData I) s l = .ok r := by
  by_cases h1 : ∃ t ∈ tokenize s l, ¬ BlankForm t
  · rw [parseOrdinalWith_join]
    exact parseNumberWith_returns hi.toTidy hm (wordInputOf_join hi h1 h2)
  · exact ⟨none, parseOrdinalWith_blankForms hi.toTidy (fun t ht => Classical.byContradiction fun h => h1 ⟨t, ht, h⟩)⟩

/-! ### Texts split at white space -/

theorem becomesOf_iff {I : Info} (hi : Tidy I) {t c : PyStr} : BecomesOf I t c ↔ c = convOf I t := by
  cases hn : isNumberToken (norm t) (mkLangData I) with
  | some d =>
    have h1 := (numberTokenOf_iff hi).mp hn
    rw [numberToken_convOf hn]
    constructor
    · rintro (h | ⟨h, _⟩)
      · have : isNumberToken (norm t) (mkLangData I) = some c := (numberTokenOf_iff hi).mpr h
        rw [hn] at this
        injection this with this; exact this.symm
      · exact absurd h1 (h d)
    · rintro rfl; exact Or.inl h1
  | none =>
    have h1 : ∀ d, ¬ StandsForOf I (irregular (form t)) d := by
      intro d h
      have : isNumberToken (norm t) (mkLangData I) = some d := (numberTokenOf_iff hi).mpr h
      rw [hn] at this; cases this
    have h2 : convOf I t = irregular (form t) := conv_other (by rw [hn]; rfl)
    rw [h2]
    constructor
    · rintro (h | ⟨_, h⟩)
      · exact absurd h (h1 c)
      · exact h
    · rintro rfl; exact Or.inr ⟨h1, rfl⟩

theorem replacedOf_iff {I : Info} (hi : Tidy I) {ts us : List PyStr} :
    ReplacedOf I ts us ↔ us = ts.map (fun t => dropApos (convOf I t)) := by
  constructor
  · intro h
    induction h with
    | nil => rfl
    | cons h _ ih => rw [(becomesOf_iff hi).mp h, ih, ← dropApos_eq]; rfl
  · rintro rfl
    induction ts with
    | nil => exact .nil
    | cons t ts ih =>
      rw [List.map_cons, dropApos_eq]
      exact .cons ((becomesOf_iff hi).mpr rfl) ih

theorem solid_hindi {I : Info} (hi : Tidy I) {s t : PyStr} (ht : t ∈ tokenize s u!"hi") :
    solid u!"hi" (dropApos (convOf I t)) = formsOf [dropApos (convOf I t)] := by
  rcases token_kinds ht with h | h | ⟨h, _⟩
  · have h1 : ∀ c ∈ dropApos (convOf I t), sepChar u!"hi" c = false := by
      intro c hc
      rw [hi_sep]
      exact convOf_solid hi (nonsep_solid h) c (dropApos_mem.mp hc).1
    have h2 : noShy (dropApos (convOf I t)) = dropApos (convOf I t) := by
      apply List.filter_eq_self.mpr
      intro c hc
      have := convOf_noShy hi (I := I) (token_noShy ht)
      exact List.filter_eq_self.mp this c (dropApos_mem.mp hc).1
    rw [solid_eq, h2]
    by_cases hb : blank (dropApos (convOf I t)) = true
    · have : dropApos (convOf I t) = [] := by
        rw [blank_spec] at hb
        cases hd : dropApos (convOf I t) with
        | nil => rfl
        | cons x xs =>
          have e1 := hb x (by rw [hd]; simp)
          have e2 := h1 x (by rw [hd]; simp)
          rw [hi_sep, e1] at e2; cases e2
      rw [this]
      decide +kernel
    · rw [sol_word _ h1 (by simpa using hb)]; rfl
  · have hb := (pieceOf_blank (I := I) (l := u!"hi") h)
    rw [hb.2.1]
    rw [hb.1]
    have h3 : blank (norm (dropApos (norm t))) = true := by
      apply blank_norm
      rw [blank_spec]
      intro c hc
      exact (blank_spec _).mp ((blankForm_iff t).mp h) c (dropApos_mem.mp hc).1
    show [] = ([norm (dropApos (norm t))]).filter (fun t => !blank t)
    rw [List.filter_cons, h3]; rfl
  · exact absurd rfl h

theorem pieces_hindi {I : Info} (hi : Tidy I) {s : PyStr} {ts : List PyStr} (hts : ∀ t ∈ ts, t ∈ tokenize s u!"hi") :
    piecesOf I u!"hi" ts = formsOf (ts.map (fun t => dropApos (convOf I t))) := by
  induction ts with
  | nil => rfl
  | cons t ts ih =>
    unfold piecesOf at *
    rw [List.flatMap_cons, ih (fun x hx => hts x (List.mem_cons_of_mem _ hx)), solid_hindi hi (hts t (by simp)), List.map_cons]
    show _ = ((_ :: _ : List PyStr).map norm).filter _
    rw [List.map_cons, List.filter_cons]
    show ([norm _].filter _) ++ _ = _
    rw [List.filter_cons]
    split <;> rfl

/-- `parse_ordinal` for texts split at white space -/
theorem parseOrdinalWith_hindi {I : Info} (hi : Plain I) {s : PyStr} {t : PyStr} {ts : List PyStr}
    (hts : Tokens u!"hi" s (t :: ts)) (h1 : ∃ x ∈ t :: ts, ¬ BlankForm x) (h2 : ¬ SingleNumeral (t :: ts)) (n : Nat) :
    parseOrdinalWith (mkLangData I) s u!"hi" = .ok (some n) ↔
      ∃ u us ws, ReplacedOf I (t :: ts) (u :: us) ∧ form u ∉ I.skipTokens ∧ n < 10 ^ 4300 ∧ OnlyWordsOf I (u :: us) ws ∧ ReadAs I ws n := by
  rw [tokens_iff] at hts
  rw [hts] at h1 h2
  have hwi := wordInputOf_join hi h1 h2
  rw [parseOrdinalWith_join]
  rw [← hts] at hwi ⊢
  have htm : ∀ x ∈ t :: ts, x ∈ tokenize s u!"hi" := fun x hx => by rw [← hts]; exact hx
  have hh := hd_join u!"hi" (convOf I t) (ts.map (convOf I))
  have hj := solid_join u!"hi" ((t :: ts).map (convOf I))
  rw [List.flatMap_map] at hj
  rw [← List.map_cons] at hh
  generalize join u!" " ((t :: ts).map (convOf I)) = j at *
  obtain ⟨t', ts', hts'⟩ : ∃ t' ts', tokenize (withoutApostrophes j) u!"hi" = t' :: ts' := by
    rw [tokenize_eq, split_cons]; exact ⟨_, _, rfl⟩
  have ht' : t' = hd u!"hi" (noShy (dropApos j)) := by
    rw [tokenize_eq, split_cons, ← dropApos_eq] at hts'
    injection hts' with h; exact h.symm
  have hforms : formsOf (t' :: ts') = formsOf ((t :: ts).map (fun t => dropApos (convOf I t))) := by
    rw [← hts', ← dropApos_eq, ← pieces_hindi hi.toTidy htm]; exact hj
  rw [parseNumberWith_reads hi.toSensible hwi ((tokens_iff _ _ _).mpr hts'.symm), onlyWordsOf_forms hi.toSensible, hforms,
    ← onlyWordsOf_forms hi.toSensible]
  have hw : ∀ c ∈ t, isSpace c = false := by
    have : t = hd u!"hi" (noShy s) := by
      rw [tokenize_eq, split_cons] at hts
      injection hts
    intro c hc
    rw [this] at hc
    rw [← hi_sep]; exact hd_chars _ _ c hc
  have ht2 : t' = dropApos (convOf I t) := by
    rw [ht', hh]
    have h2 : noShy (dropApos (convOf I t)) = dropApos (convOf I t) := by
      apply List.filter_eq_self.mpr
      intro c hc
      have := convOf_noShy hi.toTidy (I := I) (token_noShy (htm t (by simp)))
      exact List.filter_eq_self.mp this c (dropApos_mem.mp hc).1
    rw [h2]
    apply hd_word
    intro c hc
    rw [hi_sep]
    exact convOf_solid hi.toTidy hw c (dropApos_mem.mp hc).1
  rw [ht2]
  constructor
  · rintro ⟨h1, h2, ws, h3, h4⟩
    exact ⟨_, _, ws, (replacedOf_iff hi.toTidy).mpr rfl, h1, h2, h3, h4⟩
  · rintro ⟨u, us, ws, h0, h1, h2, h3, h4⟩
    have h0 := (replacedOf_iff hi.toTidy).mp h0
    rw [List.map_cons] at h0
    injection h0 with e1 e2
    subst e1 e2
    exact ⟨h1, h2, ws, h3, h4⟩

/-! ### Checking a data module -/

def plainCharB (c : Nat) : Bool := ccc c == 0 && c != 0xbd7 && c != 0x1b35

def plainB (i : Info) : Bool :=
  let fs := allForms i
  tidyB i && fs.all (fun f => f.all plainCharB && f.any isWord && f.any (fun c => !isNumericChar c)) &&
    i.skipTokens.all (fun f => f.all plainCharB && (f == u!"-" || f.any isWord) && (candidatesB f).all (fun c => !fs.elem c))

theorem plainCharB_sound {c : Nat} (h : plainCharB c = true) : PlainChar c := by
  unfold plainCharB at h
  simp only [Bool.and_eq_true, beq_iff_eq, bne_iff_ne] at h
  exact ⟨h.1.1, h.1.2, h.2⟩

theorem plainB_sound {i : Info} (h : plainB i = true) : Plain i := by
  unfold plainB at h
  simp only [Bool.and_eq_true] at h
  obtain ⟨⟨h1, h2⟩, h3⟩ := h
  have w : ∀ f, Listed i f → f.all plainCharB = true ∧ f.any isWord = true ∧ f.any (fun c => !isNumericChar c) = true := by
    intro f hf
    have := List.all_eq_true.mp h2 f (listed_forms.mp hf)
    simp only [Bool.and_eq_true] at this
    exact ⟨this.1.1, this.1.2, this.2⟩
  have k : ∀ f ∈ i.skipTokens, f.all plainCharB = true ∧ (f == u!"-" || f.any isWord) = true ∧
      (candidatesB f).all (fun c => !(allForms i).elem c) = true := by
    intro f hf
    have := List.all_eq_true.mp h3 f hf
    simp only [Bool.and_eq_true] at this
    exact ⟨this.1.1, this.1.2, this.2⟩
  refine { toTidy := tidyB_sound h1, wordPlain := ?_, conjunctionPlain := ?_, wordLetter := ?_, conjunctionLetter := ?_,
           conjunctionStands := ?_, wordNotNumeric := ?_ }
  · exact fun f hf c hc => plainCharB_sound (List.all_eq_true.mp (w f hf).1 c hc)
  · exact fun f hf c hc => plainCharB_sound (List.all_eq_true.mp (k f hf).1 c hc)
  · exact fun f hf => List.any_eq_true.mp (w f hf).2.1
  · intro f hf
    have := (k f hf).2.1
    rw [Bool.or_eq_true, beq_iff_eq] at this
    exact this.imp id List.any_eq_true.mp
  · rintro f hf c ⟨a, b, hc, hl, _⟩
    have := List.all_eq_true.mp (k f hf).2.2 c (by rw [← candidatesB_sound hc]; simp)
    rw [List.elem_iff.mpr (listed_forms.mp hl)] at this; cases this
  · intro f hf
    obtain ⟨c, hc, hn⟩ := List.any_eq_true.mp (w f hf).2.2
    exact ⟨c, hc, by simpa using hn⟩

end NumberParser
