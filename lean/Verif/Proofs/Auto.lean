import Verif.Proofs.Spacing
import Verif.Proofs.Occurs
import Verif.Proofs.Words
import Verif.Proofs.Ordinals

/-! The language detected for a text of number words of one language (C11). -/

set_option linter.unusedSimpArgs false

namespace NumberParser
open Spec

set_option maxRecDepth 100000

/-- The script of a character: 0 for ASCII letters and the hyphen, 1 for Cyrillic, 2 for Devanagari, 3 for the rest. -/
def scriptOf (c : Nat) : Nat :=
  if isAz c || c == 0x2d then 0 else if 0x400 ≤ c && c ≤ 0x4ff then 1 else if 0x900 ≤ c && c ≤ 0x97f then 2 else 3

/-- The script of a language. -/
def langScript (l : PyStr) : Nat := if l = u!"hi" then 2 else if l = u!"ru" ∨ l = u!"uk" then 1 else 0

/-- A string in the script `k`: one character of it, and no others except those of no script. -/
def inScript (k : Nat) (t : PyStr) : Bool := t.any (fun c => scriptOf c == k) && t.all (fun c => scriptOf c == k || scriptOf c == 3)

def scriptCheck (k : Nat) (ld : LangData) : Bool :=
  ld.allNumbers.all (fun e => inScript k e.1) && ld.skipTokens.all (fun t => inScript k t)

theorem sc_en : scriptCheck 0 (mkLangData Data.en) = true := by decide +kernel
theorem sc_es : scriptCheck 0 (mkLangData Data.es) = true := by decide +kernel
theorem sc_hi : scriptCheck 2 (mkLangData Data.hi) = true := by decide +kernel
theorem sc_ru : scriptCheck 1 (mkLangData Data.ru) = true := by decide +kernel
theorem sc_uk : scriptCheck 1 (mkLangData Data.uk) = true := by decide +kernel

theorem script_ok {l : PyStr} {ld : LangData} (h : languageData l = .ok ld) : scriptCheck (langScript l) ld = true := by
  rcases (languageData_ok_iff l ld).mp h with ⟨rfl, rfl⟩ | ⟨rfl, rfl⟩ | ⟨rfl, rfl⟩ | ⟨rfl, rfl⟩ | ⟨rfl, rfl⟩
  · exact sc_en
  · exact sc_es
  · exact sc_hi
  · exact sc_ru
  · exact sc_uk

theorem langScript_lt (l : PyStr) : langScript l < 3 := by
  unfold langScript
  split
  · omega
  · split <;> omega

theorem numOrSkip_script {l : PyStr} {ld : LangData} (h : languageData l = .ok ld) {t : PyStr} (ht : numOrSkip ld t = true) :
    inScript (langScript l) t = true := by
  have hn := script_ok h
  unfold scriptCheck at hn
  rw [Bool.and_eq_true] at hn
  unfold numOrSkip at ht
  rw [Bool.or_eq_true] at ht
  rcases ht with ht | ht
  · exact dictAllKey_sound (p := fun t => inScript (langScript l) t) hn.1 ht
  · exact List.all_eq_true.mp hn.2 t (List.elem_iff.mp ht)

theorem space_script {c : Nat} (h : isSpace c = true) : scriptOf c = 3 := by
  have := space_all (p := fun c => scriptOf c == 3) (by decide +kernel) h
  simpa using this

/-! ### Conversion of ordinals adds ASCII letters only -/

theorem mem_replaceGo {old new : PyStr} {k : Nat} {s : PyStr} {x : Nat} (h : x ∈ replaceGo old new k s) : x ∈ s ∨ x ∈ new := by
  induction s generalizing k with
  | nil => cases k <;> simp [replaceGo] at h
  | cons c cs ih =>
    cases k with
    | succ k =>
      rw [replaceGo] at h
      rcases ih h with h | h
      · exact Or.inl (List.mem_cons_of_mem _ h)
      · exact Or.inr h
    | zero =>
      rw [replaceGo] at h
      split at h
      · rcases List.mem_append.mp h with h | h
        · exact Or.inr h
        · rcases ih h with h | h
          · exact Or.inl (List.mem_cons_of_mem _ h)
          · exact Or.inr h
      · rcases List.mem_cons.mp h with rfl | h
        · exact Or.inl List.mem_cons_self
        · rcases ih h with h | h
          · exact Or.inl (List.mem_cons_of_mem _ h)
          · exact Or.inr h

theorem mem_subEnd {suf repl s : PyStr} {x : Nat} (h : x ∈ subEnd suf repl s) : x ∈ s ∨ x ∈ repl ∨ x = 10 := by
  unfold subEnd at h
  split at h
  · rcases List.mem_append.mp h with h | h
    · exact Or.inl (List.mem_of_mem_take h)
    · exact Or.inr (Or.inl h)
  · split at h
    · rcases List.mem_append.mp h with h | h
      · rcases List.mem_append.mp h with h | h
        · exact Or.inl (List.mem_of_mem_take h)
        · exact Or.inr (Or.inl h)
      · simp at h; exact Or.inr (Or.inr h)
    · exact Or.inl h

theorem mem_conv {ld : LangData} {t : PyStr} {x : Nat} (h : x ∈ applyCardinalConversion t ld) : x ∈ t ∨ isAz x = true ∨ x = 10 := by
  have hfold : ∀ (ls : List (PyStr × PyStr)) (t : PyStr) (x : Nat), (∀ e ∈ ls, ∀ c ∈ e.2, isAz c = true) →
      x ∈ ls.foldl (fun t wn => replace t wn.1 wn.2) t → x ∈ t ∨ isAz x = true := by
    intro ls
    induction ls with
    | nil => intro t x _ h; exact Or.inl h
    | cons e ls ih =>
      intro t x he h
      rcases ih _ _ (fun e he' => he e (List.mem_cons_of_mem _ he')) h with h | h
      · rcases mem_replaceGo h with h | h
        · exact Or.inl h
        · exact Or.inr (he e List.mem_cons_self x h)
      · exact Or.inr h
  have hirr : ∀ x ∈ CARDINAL_DIRECT_NUMBERS.foldl (fun t wn => replace t wn.1 wn.2) t, x ∈ t ∨ isAz x = true :=
    fun x hx => hfold _ t x (by decide) hx
  unfold applyCardinalConversion at h
  simp only at h
  split at h
  · rcases mem_subEnd h with h | h | h
    · rcases hirr x h with h | h
      · exact Or.inl h
      · exact Or.inr (Or.inl h)
    · simp at h; rw [h]; exact Or.inr (Or.inl (by decide))
    · exact Or.inr (Or.inr h)
  · split at h
    · rcases mem_subEnd h with h | h | h
      · rcases hirr x h with h | h
        · exact Or.inl h
        · exact Or.inr (Or.inl h)
      · cases h
      · exact Or.inr (Or.inr h)
    · rcases hirr x h with h | h
      · exact Or.inl h
      · exact Or.inr (Or.inl h)

/-- A string without characters of the script of a language is no number word of it. -/
theorem foreign_not_valid {l : PyStr} {ld : LangData} (h : languageData l = .ok ld) {t : PyStr}
    (ht : ∀ c ∈ t, scriptOf c ≠ langScript l) : (isNumberToken t ld).isSome = false ∧ isSkipToken t ld = false := by
  refine ⟨?_, ?_⟩
  · cases hs : (isNumberToken t ld).isSome with
    | false => rfl
    | true =>
      unfold isNumberToken isCardinalToken at hs
      have hm : ld.allNumbers.mem (applyCardinalConversion t ld) = true := by
        cases hm : ld.allNumbers.mem (applyCardinalConversion t ld) with
        | true => rfl
        | false => rw [hm] at hs; cases hs
      have hsc := numOrSkip_script h (t := applyCardinalConversion t ld) (by unfold numOrSkip; rw [hm]; rfl)
      unfold inScript at hsc
      rw [Bool.and_eq_true, List.any_eq_true] at hsc
      obtain ⟨x, hx, hxs⟩ := hsc.1
      simp only [beq_iff_eq] at hxs
      by_cases h0 : langScript l = 0
      · have : ∀ c ∈ t, isAz c = false := by
          intro c hc
          cases ha : isAz c with
          | false => rfl
          | true => exact absurd (by rw [h0]; unfold scriptOf; rw [ha]; rfl) (ht c hc)
        rw [conv_noletters ld this] at hx
        exact absurd hxs (ht x hx)
      · rcases mem_conv hx with hx | hx | hx
        · exact absurd hxs (ht x hx)
        · rw [← hxs] at h0; unfold scriptOf at h0; rw [hx] at h0; simp at h0
        · subst hx
          have := langScript_lt l
          rw [← hxs] at this
          exact absurd this (by decide)
  · cases hs : isSkipToken t ld with
    | false => rfl
    | true =>
      have hsc := numOrSkip_script h (t := t) (by unfold numOrSkip; rw [hs]; simp)
      unfold inScript at hsc
      rw [Bool.and_eq_true, List.any_eq_true] at hsc
      obtain ⟨x, hx, hxs⟩ := hsc.1
      simp only [beq_iff_eq] at hxs
      exact absurd hxs (ht x hx)

/-! ### The characters of a text of number words -/

theorem char_in_sol {l s : PyStr} {c : Nat} (hc : c ∈ s) (hs : isSpace c = false) : ∃ t ∈ sol l s, c ∈ t := by
  have := split_flatten l s
  rw [← this] at hc
  obtain ⟨t, ht, hct⟩ := List.mem_flatten.mp hc
  exact ⟨t, List.mem_filter.mpr ⟨ht, by rw [not_blank_of_mem hct hs]; rfl⟩, hct⟩

/-- The comparison form of any piece of a text of number words of a language is in its script. -/
theorem Frag.script {l : PyStr} {ld : LangData} (h : languageData l = .ok ld) {s : PyStr} {ks : List Kind} (hf : Frag l ld s ks)
    {t : PyStr} (ht : ∀ c ∈ t, c ∈ s) : ∀ x ∈ norm t, scriptOf x = langScript l ∨ scriptOf x = 3 := by
  intro x hx
  obtain ⟨c, hc, hxc⟩ := mem_norm hx
  cases hsp : isSpace c with
  | true =>
    right
    have h1 : x ∈ norm [c] := norm_mem (by simp) (by rintro rfl; revert hsp; decide +kernel) hxc
    exact space_script (norm_space (t := [c]) (by simpa using hsp) x h1)
  | false =>
    obtain ⟨u, hu, hcu⟩ := char_in_sol (l := l) (ht c hc) hsp
    have hsc := numOrSkip_script h (hf.ok _ (List.mem_map.mpr ⟨u, hu, rfl⟩))
    unfold inScript at hsc
    rw [Bool.and_eq_true, List.all_eq_true] at hsc
    by_cases hsig : c = 0x3a3
    · subst hsig
      right
      have : x = 0x3c2 ∨ x = 0x3c3 := by
        have hx' : x ∈ normChars 0x3a3 := hxc
        rw [show normChars 0x3a3 = [0x3c2, 0x3c3] from by decide +kernel] at hx'
        simpa using hx'
      rcases this with rfl | rfl <;> decide +kernel
    · have := hsc.2 x (norm_mem hcu hsig hxc)
      simpa using this

theorem tokenize_sub {l s t : PyStr} (h : t ∈ tokenize s l) : ∀ c ∈ t, c ∈ s := by
  intro c hc
  rw [tokenize_eq] at h
  have : c ∈ noShy s := by
    rw [← split_flatten l (noShy s)]
    exact List.mem_flatten.mpr ⟨t, h, hc⟩
  exact (List.mem_filter.mp this).1

/-- A text of number words of one language scores nothing in a language of another script. -/
theorem score_foreign {l l' : PyStr} {ld : LangData} (h : languageData l = .ok ld) (hl' : l' ∈ supported) {s : PyStr} {ks : List Kind}
    (hf : Frag l ld s ks) (hne : langScript l ≠ langScript l') : score s l' = 0 := by
  unfold score
  rw [List.length_eq_zero_iff, List.filter_eq_nil_iff]
  intro f hfm
  obtain ⟨t, ht, rfl⟩ := List.mem_map.mp hfm
  obtain ⟨h1, h2⟩ := foreign_not_valid (supported_data hl') (t := norm t) (by
    intro c hc
    rcases hf.script h (tokenize_sub ht) c hc with h | h
    · rw [h]; exact hne
    · rw [h]; have := langScript_lt l'; omega)
  show ¬ ((isNumberToken (norm t) _).isSome || isSkipToken (norm t) _) = true
  rw [h1, h2]; simp

theorem solid_of_frag {l : PyStr} {ld : LangData} (h : languageData l = .ok ld) {s : PyStr} {ks : List Kind} (hf : Frag l ld s ks) :
    solid l s = (sol l s).map norm := by
  rw [solid_eq, noShy_plain hf.plain, List.filter_eq_self]
  intro t ht
  rw [numOrSkip_blank (languageData_wf h) (hf.ok t ht)]; rfl

theorem score_own {l : PyStr} (hl : l ∈ supported) {s : PyStr} {ks : List Kind} (hf : Frag l (mkLangData (file l)) s ks) :
    score s l = (sol l s).length := by
  have hd := supported_data hl
  rw [score_solid hl, solid_of_frag hd hf, List.filter_eq_self.mpr, List.length_map]
  intro t ht
  have := hf.ok t ht
  unfold numOrSkip at this
  rw [Bool.or_eq_true] at this ⊢
  rcases this with h | h
  · exact Or.inl (by rw [number_of_mem (languageData_wf hd) h]; rfl)
  · exact Or.inr h

theorem sol_same {l l' : PyStr} (h : RE_BUG_LANGUAGES.elem l = RE_BUG_LANGUAGES.elem l') (s : PyStr) : sol l s = sol l' s := by
  unfold sol split; rw [h]

theorem solid_same {l l' : PyStr} (h : RE_BUG_LANGUAGES.elem l = RE_BUG_LANGUAGES.elem l') (s : PyStr) : solid l s = solid l' s := by
  rw [solid_eq, solid_eq, sol_same h]

theorem score_le {l l' : PyStr} (hl : l ∈ supported) (hl' : l' ∈ supported) (he : RE_BUG_LANGUAGES.elem l = RE_BUG_LANGUAGES.elem l')
    {s : PyStr} {ks : List Kind} (hf : Frag l (mkLangData (file l)) s ks) : score s l' ≤ score s l := by
  rw [score_own hl hf, score_solid hl', ← solid_same he, solid_of_frag (supported_data hl) hf]
  exact Nat.le_trans (List.length_filter_le _ _) (by rw [List.length_map]; exact Nat.le_refl _)

theorem score_tie {l l' : PyStr} (hl : l ∈ supported) (hl' : l' ∈ supported) (he : RE_BUG_LANGUAGES.elem l = RE_BUG_LANGUAGES.elem l')
    {s : PyStr} {ks : List Kind} (hf : Frag l (mkLangData (file l)) s ks) (hle : score s l ≤ score s l') :
    ∀ t ∈ (sol l s).map norm, ((isNumberToken t (mkLangData (file l'))).isSome || isSkipToken t (mkLangData (file l'))) = true := by
  rw [score_own hl hf, score_solid hl', ← solid_same he, solid_of_frag (supported_data hl) hf] at hle
  intro t ht
  have : ((sol l s).map norm).filter (fun t => (isNumberToken t (mkLangData (file l'))).isSome || isSkipToken t (mkLangData (file l'))) =
      (sol l s).map norm := by
    apply List.Sublist.eq_of_length_le (List.filter_sublist)
    rw [List.length_map]; exact hle
  rw [← this] at ht
  exact (List.mem_filter.mp ht).2

/-! ### Languages of the same script -/

/-- No number word or conjunction of the first language is one of the second. -/
def disjointCheck (a b : LangData) : Bool :=
  a.allNumbers.all (fun e => !((isNumberToken e.1 b).isSome || isSkipToken e.1 b)) &&
  a.skipTokens.all (fun t => !((isNumberToken t b).isSome || isSkipToken t b))

theorem disjoint_es_en : disjointCheck (mkLangData Data.es) (mkLangData Data.en) = true := by decide +kernel

/-- The number words of the first language that count as number words of the second have the same meaning in both. -/
def sharedCheck (a b : LangData) : Bool :=
  a.allNumbers.all (fun e => !((isNumberToken e.1 b).isSome || isSkipToken e.1 b) || (b.allNumbers.mem e.1 && kindOf b e.1 == kindOf a e.1))

theorem shared_uk_ru : sharedCheck (mkLangData Data.uk) (mkLangData Data.ru) = true := by decide +kernel

theorem shared_words {k : PyStr} (hk : (mkLangData Data.uk).allNumbers.mem k = true)
    (hv : ((isNumberToken k (mkLangData Data.ru)).isSome || isSkipToken k (mkLangData Data.ru)) = true) :
    (mkLangData Data.ru).allNumbers.mem k = true ∧ kindOf (mkLangData Data.ru) k = kindOf (mkLangData Data.uk) k := by
  have h := shared_uk_ru
  unfold sharedCheck at h
  generalize mkLangData Data.uk = a at *
  generalize mkLangData Data.ru = b at *
  have := dictAllKey_sound (p := fun k => !((isNumberToken k b).isSome || isSkipToken k b) || (b.allNumbers.mem k && kindOf b k == kindOf a k)) h hk
  rw [hv] at this
  simpa using this

theorem disjoint_words {k : PyStr} (hk : numOrSkip (mkLangData Data.es) k = true) :
    ((isNumberToken k (mkLangData Data.en)).isSome || isSkipToken k (mkLangData Data.en)) = false := by
  have h := disjoint_es_en
  unfold disjointCheck at h
  generalize mkLangData Data.es = a at *
  generalize mkLangData Data.en = b at *
  rw [Bool.and_eq_true] at h
  unfold numOrSkip at hk
  rw [Bool.or_eq_true] at hk
  have key : (!((isNumberToken k b).isSome || isSkipToken k b)) = true := by
    rcases hk with hk | hk
    · exact dictAllKey_sound (p := fun k => !((isNumberToken k b).isSome || isSkipToken k b)) h.1 hk
    · exact List.all_eq_true.mp h.2 k (List.elem_iff.mp hk)
  simpa using key

theorem detected_intro {s l : PyStr} {before after : List PyStr} (hs : supported = before ++ l :: after)
    (h1 : ∀ x ∈ before, score s x < score s l) (h2 : ∀ x ∈ after, score s x ≤ score s l) : Detected s l := by
  have hm : ∀ x, x ∈ before ++ l :: after → x ∈ supported := by intro x hx; rw [hs]; exact hx
  exact ⟨before, after, hs, score s l, (score_iff (hm l (by simp)) s _).mpr rfl,
    fun x hx => ⟨score s x, (score_iff (hm x (by simp [hx])) s _).mpr rfl, h1 x hx⟩,
    fun x hx => ⟨score s x, (score_iff (hm x (by simp [hx])) s _).mpr rfl, h2 x hx⟩⟩

theorem score_pos {l : PyStr} (hl : l ∈ supported) {s : PyStr} {ks : List Kind} (hf : Frag l (mkLangData (file l)) s ks) (hne : ks ≠ []) :
    0 < score s l := by
  rw [score_own hl hf]
  apply Nat.pos_of_ne_zero
  intro h
  rw [List.length_eq_zero_iff] at h
  have := hf.kinds
  rw [h] at this
  exact hne this.symm

/-- What the detector finds: the languages listed before `l` score less, and those after it not more. -/
def beforeLang (l : PyStr) : List PyStr := supported.takeWhile (fun x => x != l)

/-- Number words of `L` score no less in `L` than in any language, and more than in those listed before; except that
Ukrainian words may all be Russian as well. -/
theorem auto_scores {L : Lang} (hL : L ∈ languages) {s : PyStr} {ks : List Kind} (hf : Frag L.code (mkLangData (file L.code)) s ks) (hne : ks ≠ []) :
    (∀ x ∈ supported, score s x ≤ score s L.code) ∧
    ∀ x ∈ beforeLang L.code, score s x < score s L.code ∨ (L = ukrainian ∧ x = u!"ru" ∧
      ∀ t ∈ (sol u!"uk" s).map norm, ((isNumberToken t (mkLangData Data.ru)).isSome || isSkipToken t (mkLangData Data.ru)) = true) := by
  have hsup := (styleOK hL).2
  have hpos := score_pos hsup hf hne
  have hfor : ∀ l', l' ∈ supported → langScript L.code ≠ langScript l' → score s l' = 0 :=
    fun l' h1 h2 => score_foreign (supported_data hsup) h1 hf h2
  have hlt : ∀ l', l' ∈ supported → langScript L.code ≠ langScript l' → score s l' < score s L.code := by
    intro l' h1 h2
    rw [hfor l' h1 h2]; exact hpos
  refine ⟨?_, ?_⟩
  · intro x hx
    by_cases hs : langScript L.code = langScript x
    · apply score_le hsup hx _ hf
      have key : ∀ a ∈ supported, ∀ b ∈ supported, langScript a = langScript b → RE_BUG_LANGUAGES.elem a = RE_BUG_LANGUAGES.elem b := by
        decide
      exact key _ hsup x hx hs
    · exact Nat.le_of_lt (hlt x hx hs)
  · simp only [languages, List.mem_cons, List.not_mem_nil, or_false] at hL
    rcases hL with rfl | rfl | rfl | rfl | rfl
    · intro x hx
      rw [show beforeLang english.code = [] from by decide] at hx
      cases hx
    · intro x hx
      rw [show beforeLang spanish.code = [u!"en"] from by decide] at hx
      simp only [List.mem_cons, List.not_mem_nil, or_false] at hx
      subst hx
      left
      apply Nat.lt_of_not_le
      intro h
      have htie := score_tie (l' := u!"en") hsup (by decide) rfl hf h
      rw [score_own hsup hf] at hpos
      obtain ⟨t, ht⟩ := List.exists_mem_of_length_pos hpos
      have h1 := htie (norm t) (List.mem_map.mpr ⟨t, ht, rfl⟩)
      have h2 := disjoint_words (hf.ok (norm t) (List.mem_map.mpr ⟨t, ht, rfl⟩))
      exact absurd (h1.symm.trans h2) (by simp)
    · intro x hx
      rw [show beforeLang hindi.code = [u!"en", u!"es"] from by decide] at hx
      simp only [List.mem_cons, List.not_mem_nil, or_false] at hx
      rcases hx with rfl | rfl
      · exact Or.inl (hlt _ (by decide) (by decide))
      · exact Or.inl (hlt _ (by decide) (by decide))
    · intro x hx
      rw [show beforeLang russian.code = [u!"en", u!"es", u!"hi"] from by decide] at hx
      simp only [List.mem_cons, List.not_mem_nil, or_false] at hx
      rcases hx with rfl | rfl | rfl
      · exact Or.inl (hlt _ (by decide) (by decide))
      · exact Or.inl (hlt _ (by decide) (by decide))
      · exact Or.inl (hlt _ (by decide) (by decide))
    · intro x hx
      rw [show beforeLang ukrainian.code = [u!"en", u!"es", u!"hi", u!"ru"] from by decide] at hx
      simp only [List.mem_cons, List.not_mem_nil, or_false] at hx
      rcases hx with rfl | rfl | rfl | rfl
      · exact Or.inl (hlt _ (by decide) (by decide))
      · exact Or.inl (hlt _ (by decide) (by decide))
      · exact Or.inl (hlt _ (by decide) (by decide))
      · by_cases h : score s u!"ru" < score s u!"uk"
        · exact Or.inl h
        · exact Or.inr ⟨rfl, rfl, score_tie (l := u!"uk") (l' := u!"ru") hsup (by decide) rfl hf (Nat.le_of_not_lt h)⟩

theorem supported_split {l : PyStr} (hl : l ∈ supported) : ∃ after, supported = beforeLang l ++ l :: after ∧ ∀ x ∈ after, x ∈ supported := by
  simp only [supported, List.mem_cons, List.not_mem_nil, or_false] at hl
  rcases hl with rfl | rfl | rfl | rfl | rfl
  · exact ⟨[u!"es", u!"hi", u!"ru", u!"uk"], by decide, by decide⟩
  · exact ⟨[u!"hi", u!"ru", u!"uk"], by decide, by decide⟩
  · exact ⟨[u!"ru", u!"uk"], by decide, by decide⟩
  · exact ⟨[u!"uk"], by decide, by decide⟩
  · exact ⟨[], by decide, by decide⟩

theorem detected_scores {s l : PyStr} (hl : l ∈ supported) (h1 : ∀ x ∈ beforeLang l, score s x < score s l)
    (h2 : ∀ x ∈ supported, score s x ≤ score s l) : Detected s l := by
  obtain ⟨after, hs, ha⟩ := supported_split hl
  exact detected_intro hs h1 (fun x hx => h2 x (ha x hx))

/-- A text whose tokens are those of fragments of number words of `L` and neutral tokens is recognised as `L`, or as
Russian if all its Ukrainian words are Russian as well. -/
theorem auto_frags {L : Lang} (hL : L ∈ languages) {s : PyStr} (fs : List (PyStr × List Kind)) (hfs : fs ≠ [])
    (hf : ∀ f ∈ fs, Frag L.code (mkLangData (file L.code)) f.1 f.2 ∧ f.2 ≠ [])
    (hs : ∀ x ∈ supported, score s x = (fs.map (fun f => score f.1 x)).sum) :
    Detected s L.code ∨ (L = ukrainian ∧ Detected s u!"ru" ∧ ∀ f ∈ fs,
      ∀ t ∈ (sol u!"uk" f.1).map norm, ((isNumberToken t (mkLangData Data.ru)).isSome || isSkipToken t (mkLangData Data.ru)) = true) := by
  have hsup := (styleOK hL).2
  have hsc := fun f (h : f ∈ fs) => auto_scores hL (hf f h).1 (hf f h).2
  have hle : ∀ x ∈ supported, score s x ≤ score s L.code := by
    intro x hx
    rw [hs x hx, hs _ hsup]
    clear hs hfs
    induction fs with
    | nil => exact Nat.le_refl _
    | cons f fs ih =>
      simp only [List.map_cons, List.sum_cons]
      have h1 := (hsc f List.mem_cons_self).1 x hx
      have h2 := ih (fun f h => hf f (List.mem_cons_of_mem _ h)) (fun f h => hsc f (List.mem_cons_of_mem _ h))
      omega
  have hbm : ∀ x ∈ beforeLang L.code, x ∈ supported := fun x hx => (List.takeWhile_sublist _).subset hx
  -- strict, or all fragments tie
  have hcase : ∀ x ∈ beforeLang L.code, score s x < score s L.code ∨ (L = ukrainian ∧ x = u!"ru" ∧ ∀ f ∈ fs,
      ∀ t ∈ (sol u!"uk" f.1).map norm, ((isNumberToken t (mkLangData Data.ru)).isSome || isSkipToken t (mkLangData Data.ru)) = true) := by
    intro x hx
    by_cases hall : ∀ f ∈ fs, ¬ score f.1 x < score f.1 L.code
    · right
      obtain ⟨f0, hf0⟩ := List.exists_mem_of_ne_nil fs hfs
      rcases (hsc f0 hf0).2 x hx with h | ⟨e1, e2, _⟩
      · exact absurd h (hall f0 hf0)
      · refine ⟨e1, e2, ?_⟩
        intro f hfm
        rcases (hsc f hfm).2 x hx with h | ⟨_, _, h⟩
        · exact absurd h (hall f hfm)
        · exact h
    · left
      simp only [Classical.not_forall, Classical.not_not] at hall
      obtain ⟨f, hfm, hlt⟩ := hall
      obtain ⟨a, b, rfl⟩ := List.append_of_mem hfm
      rw [hs x (hbm x hx), hs _ hsup]
      simp only [List.map_append, List.map_cons, List.sum_append, List.sum_cons]
      have sums : ∀ gs : List (PyStr × List Kind), (∀ g ∈ gs, g ∈ a ++ f :: b) → (gs.map (fun f => score f.1 x)).sum ≤ (gs.map (fun f => score f.1 L.code)).sum := by
        intro gs
        induction gs with
        | nil => intro _; exact Nat.le_refl _
        | cons g gs ih =>
          intro hg
          simp only [List.map_cons, List.sum_cons]
          have h1 := (hsc g (hg g List.mem_cons_self)).1 x (hbm x hx)
          have h2 := ih (fun y hy => hg y (List.mem_cons_of_mem _ hy))
          omega
      have h1 := sums a (fun g hg => by simp [hg])
      have h2 := sums b (fun g hg => by simp [hg])
      omega
  by_cases hd : ∀ x ∈ beforeLang L.code, score s x < score s L.code
  · exact Or.inl (detected_scores hsup hd hle)
  · right
    simp only [Classical.not_forall] at hd
    obtain ⟨x, hx, hnlt⟩ := hd
    rcases hcase x hx with h | ⟨rfl, rfl, hv⟩
    · exact absurd h hnlt
    · refine ⟨rfl, ?_, hv⟩
      have hge : score s ukrainian.code ≤ score s u!"ru" := Nat.le_of_not_lt hnlt
      apply detected_scores (by decide)
      · intro y hy
        have hy' : y ∈ [u!"en", u!"es", u!"hi"] := by
          rw [show beforeLang u!"ru" = [u!"en", u!"es", u!"hi"] from by decide] at hy; exact hy
        have hyb : y ∈ beforeLang ukrainian.code := by
          rw [show beforeLang ukrainian.code = [u!"en", u!"es", u!"hi", u!"ru"] from by decide]
          simp only [List.mem_cons, List.not_mem_nil, or_false] at hy' ⊢
          rcases hy' with h | h | h
          · exact Or.inl h
          · exact Or.inr (Or.inl h)
          · exact Or.inr (Or.inr (Or.inl h))
        rcases hcase y hyb with h | ⟨_, h, _⟩
        · omega
        · rw [h] at hy'; exact absurd hy' (by decide)
      · intro y hy
        have := hle y hy
        omega

theorem auto_frag {L : Lang} (hL : L ∈ languages) {s : PyStr} {ks : List Kind} (hf : Frag L.code (mkLangData (file L.code)) s ks) (hne : ks ≠ []) :
    Detected s L.code ∨ (L = ukrainian ∧ Detected s u!"ru" ∧
      ∀ t ∈ (sol u!"uk" s).map norm, ((isNumberToken t (mkLangData Data.ru)).isSome || isSkipToken t (mkLangData Data.ru)) = true) := by
  rcases auto_frags hL (s := s) [(s, ks)] (by simp) (by simpa using ⟨hf, hne⟩) (by simp) with h | ⟨h1, h2, h3⟩
  · exact Or.inl h
  · exact Or.inr ⟨h1, h2, h3 (s, ks) (by simp)⟩

theorem Text.ne_nil {σ : Style} {ws : List PyStr} {t : PyStr} (h : Text σ ws t) : ws ≠ [] := by
  cases h <;> simp

/-- The words of a text are among its tokens. -/
theorem Text.mem_sol {σ : Style} {l : PyStr} {ld : LangData} (h : StyleOK σ l ld) {ws : List PyStr} {text : PyStr}
    (ht : Text σ ws text) (hk : ∀ w ∈ ws, ld.allNumbers.mem (norm w) = true) {w : PyStr} (hw : w ∈ ws) : norm w ∈ (sol l text).map norm := by
  have hwf := languageData_wf h.lang
  have hf := Text.wfrag h ht (fun w hw => ⟨key_blank hwf (hk w hw), key_skip hwf (hk w hw)⟩)
  have : norm w ∈ ((sol l text).map norm).filter (fun t => !isSkipToken t ld) := by
    rw [hf.words]; exact List.mem_map.mpr ⟨w, hw, rfl⟩
  exact (List.mem_filter.mp this).1

/-- The value of number words in Ukrainian and Russian when all of them are Russian as well. -/
theorem shared_value {ws : List PyStr} {text : PyStr} (hr : Rendering Spec.uk ws text)
    (hk : ∀ w ∈ ws, (mkLangData Data.uk).allNumbers.mem (norm w) = true)
    (hv : ∀ t ∈ (sol u!"uk" text).map norm, ((isNumberToken t (mkLangData Data.ru)).isSome || isSkipToken t (mkLangData Data.ru)) = true) :
    parseNumber text (some u!"ru") = parseNumber text (some u!"uk") := by
  have hr0 := hr
  obtain ⟨lead, rest, hlead, ht, rfl⟩ := hr
  have hshared : ∀ w ∈ ws, (mkLangData Data.ru).allNumbers.mem (norm w) = true ∧ kindOf (mkLangData Data.ru) (norm w) = kindOf (mkLangData Data.uk) (norm w) := by
    intro w hw
    apply shared_words (hk w hw)
    apply hv
    have := Text.mem_sol style_uk ht hk hw
    rw [sol_spaces _ hlead]
    exact this
  have e1 := parseNumber_rendering style_ru (ws := ws) (text := lead ++ rest) hr0 (fun w hw => (hshared w hw).1)
  have e2 := parseNumber_rendering style_uk (ws := ws) (text := lead ++ rest) hr0 hk
  rw [e1]
  refine Eq.trans ?_ e2.symm
  have e3 : wordKinds (mkLangData Data.ru) ws = wordKinds (mkLangData Data.uk) ws :=
    List.map_congr_left (fun w hw => (hshared w hw).2)
  rw [e3]; rfl

theorem rendering_frag {σ : Style} {l : PyStr} {ld : LangData} (h : StyleOK σ l ld) {ws : List PyStr} {text : PyStr} (hr : Rendering σ ws text)
    (hk : ∀ w ∈ ws, ld.allNumbers.mem (norm w) = true) : Frag l ld text (wordKinds ld ws) ∧ wordKinds ld ws ≠ [] := by
  obtain ⟨lead, rest, hlead, ht, rfl⟩ := hr
  exact ⟨Frag.prepend_spaces (Text.frag h ht hk) hlead, by simp [wordKinds, Text.ne_nil ht]⟩

/-- Auto-detection does not change the value of number words. -/
theorem auto_rendering {L : Lang} (hL : L ∈ languages) {ws : List PyStr} {text : PyStr} (hr : Rendering L.style ws text)
    (hk : ∀ w ∈ ws, (mkLangData (file L.code)).allNumbers.mem (norm w) = true) :
    parseNumber text none = parseNumber text (some L.code) := by
  obtain ⟨hf, hne⟩ := rendering_frag (styleOK hL).1 hr hk
  rcases auto_frag hL hf hne with hd | ⟨rfl, hd, hv⟩
  · exact parseNumber_detected hd
  · rw [parseNumber_detected hd]; exact shared_value hr hk hv

/-! ### Fractions -/

theorem solid_append_space (l a b : PyStr) {c : Nat} (hc : isSpace c = true) : solid l (a ++ c :: b) = solid l a ++ solid l b := by
  have hs : c ≠ 0xad := by rintro rfl; revert hc; decide +kernel
  rw [solid_eq, solid_eq, solid_eq]
  have : noShy (a ++ c :: b) = noShy a ++ c :: noShy b := by
    unfold noShy; rw [List.filter_append, List.filter_cons]; simp [hs]
  rw [this, sol_append_space l _ _ hc, List.map_append, List.filter_append]

theorem score_append_space {l : PyStr} (hl : l ∈ supported) (a b : PyStr) {c : Nat} (hc : isSpace c = true) :
    score (a ++ c :: b) l = score a l + score b l := by
  rw [score_solid hl, score_solid hl, score_solid hl, solid_append_space l a b hc, List.filter_append, List.length_append]

theorem score_separator : ∀ sep ∈ separators, ∀ l ∈ supported, score sep l = 0 := by decide +kernel

theorem parseFraction_detected {s l : PyStr} (h : Detected s l) : parseFraction s none = parseFraction s (some l) := by
  unfold parseFraction; rw [resolve_none h]; rfl

/-- Auto-detection does not change the value of a fraction of number words. -/
theorem auto_fraction {L : Lang} (hL : L ∈ languages) {us vs : List PyStr} {A B sep : PyStr} (hA : Rendering L.style us A)
    (hB : Rendering L.style vs B) (hu : ∀ w ∈ us, (mkLangData (file L.code)).allNumbers.mem (norm w) = true)
    (hv : ∀ w ∈ vs, (mkLangData (file L.code)).allNumbers.mem (norm w) = true) (hsep : sep ∈ separators) :
    parseFraction (A ++ u!" " ++ sep ++ u!" " ++ B) none = parseFraction (A ++ u!" " ++ sep ++ u!" " ++ B) (some L.code) := by
  obtain ⟨hst, hsup⟩ := styleOK hL
  have hfA := rendering_frag hst hA hu
  have hfB := rendering_frag hst hB hv
  have e : A ++ u!" " ++ sep ++ u!" " ++ B = A ++ 32 :: (sep ++ 32 :: B) := by simp
  have hsc : ∀ x ∈ supported, score (A ++ u!" " ++ sep ++ u!" " ++ B) x =
      ([(A, wordKinds (mkLangData (file L.code)) us), (B, wordKinds (mkLangData (file L.code)) vs)].map (fun f => score f.1 x)).sum := by
    intro x hx
    rw [e, score_append_space hx _ _ (by decide), score_append_space hx _ _ (by decide), score_separator sep hsep x hx]
    simp
  rcases auto_frags hL _ (by simp) (by
    intro f hf
    simp only [List.mem_cons, List.not_mem_nil, or_false] at hf
    rcases hf with rfl | rfl
    · exact hfA
    · exact hfB) hsc with hd | ⟨rfl, hd, hval⟩
  · exact parseFraction_detected hd
  · rw [parseFraction_detected hd]
    have free : ∀ {T : PyStr} {ks : List Kind}, Frag u!"uk" (mkLangData Data.uk) T ks → ∀ p ∈ sepWords, ¬ Occurs p T :=
      fun hf p hp => Frag.sepFree style_uk.lang hf hp
    have hp := fractionParts_of_free (free hfA.1) (free hfB.1) hsep
    rw [parseFraction_parts hp, parseFraction_parts hp]
    have sA : sol u!"uk" (A ++ u!" ") = sol u!"uk" A := by
      have := sol_append_space u!"uk" A [] (c := 32) (by decide)
      simpa using this
    have sB : sol u!"uk" (u!" " ++ B) = sol u!"uk" B := sol_spaces _ (by decide) _
    have vA := shared_value (rendering_space_after hA (g := u!" ") (by decide)) hu (by rw [sA]; exact hval _ List.mem_cons_self)
    have vB := shared_value (rendering_space_before hB (g := u!" ") (by decide)) hv (by rw [sB]; exact hval _ (List.mem_cons_of_mem _ List.mem_cons_self))
    unfold fractionOf
    rw [vA, vB]; rfl

end NumberParser
