import Verif.Proofs.Seq
import Verif.Spec.Text

/-! Written-out numbers: from texts to the words the number builder sees. -/

set_option linter.unusedSimpArgs false

namespace NumberParser
open Spec

set_option maxRecDepth 100000

/-! ### Table words are not numeric strings -/

def nonNumericCheck (ld : LangData) : Bool :=
  ld.allNumbers.all (fun e => e.1.any (fun c => !isNumericChar c)) &&
  ld.skipTokens.all (fun t => t.any (fun c => !isNumericChar c))

theorem nn_en : nonNumericCheck (mkLangData Data.en) = true := by decide +kernel
theorem nn_es : nonNumericCheck (mkLangData Data.es) = true := by decide +kernel
theorem nn_hi : nonNumericCheck (mkLangData Data.hi) = true := by decide +kernel
theorem nn_ru : nonNumericCheck (mkLangData Data.ru) = true := by decide +kernel
theorem nn_uk : nonNumericCheck (mkLangData Data.uk) = true := by decide +kernel

theorem nonNumeric {l : PyStr} {ld : LangData} (h : languageData l = .ok ld) : nonNumericCheck ld = true := by
  rcases (languageData_ok_iff l ld).mp h with ⟨_, rfl⟩ | ⟨_, rfl⟩ | ⟨_, rfl⟩ | ⟨_, rfl⟩ | ⟨_, rfl⟩
  · exact nn_en
  · exact nn_es
  · exact nn_hi
  · exact nn_ru
  · exact nn_uk

theorem numOrSkip_not_numeric {l : PyStr} {ld : LangData} (h : languageData l = .ok ld) {t : PyStr}
    (ht : numOrSkip ld t = true) : ∃ c ∈ t, isNumericChar c = false := by
  have hn := nonNumeric h
  unfold nonNumericCheck at hn
  rw [Bool.and_eq_true] at hn
  unfold numOrSkip at ht
  rw [Bool.or_eq_true] at ht
  rcases ht with ht | ht
  · have := dictAllKey_sound (p := fun t => t.any (fun c => !isNumericChar c)) hn.1 ht
    simpa using this
  · have := List.all_eq_true.mp hn.2 t (List.elem_iff.mp ht)
    simpa using this

/-! ### strip -/

theorem mem_rdropWhile {p : Nat → Bool} {s : PyStr} {c : Nat} (hc : c ∈ s) (hp : p c = false) : c ∈ rdropWhile p s := by
  unfold rdropWhile
  rw [List.mem_reverse]
  have : c ∈ s.reverse := List.mem_reverse.mpr hc
  generalize s.reverse = r at this
  induction r with
  | nil => cases this
  | cons d ds ih =>
    rw [List.dropWhile_cons]
    rcases List.mem_cons.mp this with rfl | h
    · rw [if_neg (by rw [hp]; simp)]; exact List.mem_cons_self
    · split
      · exact ih h
      · exact List.mem_cons_of_mem _ h

theorem mem_dropWhile {p : Nat → Bool} {s : PyStr} {c : Nat} (hc : c ∈ s) (hp : p c = false) : c ∈ s.dropWhile p := by
  induction s with
  | nil => cases hc
  | cons d ds ih =>
    rw [List.dropWhile_cons]
    rcases List.mem_cons.mp hc with rfl | h
    · rw [if_neg (by rw [hp]; simp)]; exact List.mem_cons_self
    · split
      · exact ih h
      · exact List.mem_cons_of_mem _ h

theorem mem_strip {s : PyStr} {c : Nat} (hc : c ∈ s) (hp : isSpace c = false) : c ∈ strip s :=
  mem_rdropWhile (mem_dropWhile hc hp) hp

theorem not_numeric_of_mem {s : PyStr} {c : Nat} (hc : c ∈ s) (h1 : isSpace c = false) (h2 : isNumericChar c = false) :
    isNumeric (strip s) = false := by
  have hm := mem_strip hc h1
  unfold isNumeric
  rw [Bool.and_eq_false_iff]
  right
  rw [List.all_eq_false]
  exact ⟨c, hm, by rw [h2]; simp⟩

theorem not_blank_of_mem {s : PyStr} {c : Nat} (hc : c ∈ s) (h1 : isSpace c = false) : blank s = false := by
  rw [blank_eq, List.all_eq_false]
  exact ⟨c, hc, by rw [h1]; simp⟩

/-! ### Texts of number words and skip tokens -/

/-- No soft hyphen or apostrophe. -/
def plainChar (c : Nat) : Bool := c != 0xad && (c != 0x27 && c != 0x2019)

theorem dropApos_plain {s : PyStr} (h : ∀ c ∈ s, plainChar c = true) : dropApos s = s := by
  unfold dropApos
  have h1 : s.filter (fun c => c != 39) = s := by
    rw [List.filter_eq_self]; intro c hc; have := h c hc; simp [plainChar] at this; simp [this]
  rw [h1, List.filter_eq_self]
  intro c hc; have := h c hc; simp [plainChar] at this; simp [this]

theorem noShy_plain {s : PyStr} (h : ∀ c ∈ s, plainChar c = true) : noShy s = s := by
  unfold noShy
  rw [List.filter_eq_self]; intro c hc; have := h c hc; simp [plainChar] at this; simp [this]

theorem space_plain {c : Nat} (h : isSpace c = true) : plainChar c = true :=
  space_all (p := plainChar) (by decide +kernel) h

theorem word_plain {c : Nat} (h : isWord c = true) : plainChar c = true := by
  have : ∀ x, isWord x = false → c ≠ x := fun x hx he => by subst he; rw [hx] at h; cases h
  have h1 := this 0xad (by decide +kernel)
  have h2 := this 0x27 (by decide +kernel)
  have h3 := this 0x2019 (by decide +kernel)
  simp [plainChar, h1, h2, h3]

/-- What the words, gaps and texts of a style look like to the parser. -/
structure StyleOK (σ : Style) (l : PyStr) (ld : LangData) : Prop where
  lang : languageData l = .ok ld
  word : ∀ c, σ.wordChar c = true → sepChar l c = false ∧ plainChar c = true
  joiner : ∀ c, σ.joiner c = true → isSpace c = true ∨
    (sepChar l c = true ∧ plainChar c = true ∧ isSpace c = false ∧ isSkipToken (norm [c]) ld = true)
  filler : ∀ f ∈ σ.fillers, isSkipToken (norm f) ld = true

theorem plain_word {l : PyStr} (hl : RE_BUG_LANGUAGES.elem l = false) (c : Nat) (hc : plainWordChar c = true) :
    sepChar l c = false ∧ plainChar c = true := by
  refine ⟨?_, word_plain hc⟩
  unfold sepChar
  rw [hl]
  have : isWord c = true := hc
  simp [this]

theorem style_en : StyleOK Spec.en u!"en" (mkLangData Data.en) where
  lang := rfl
  word := plain_word rfl
  joiner := by
    intro c hc
    simp only [Spec.en, Bool.or_eq_true, beq_iff_eq] at hc
    rcases hc with h | rfl
    · exact Or.inl h
    · exact Or.inr (by decide +kernel)
  filler := by decide +kernel

theorem style_es : StyleOK Spec.es u!"es" (mkLangData Data.es) where
  lang := rfl
  word := plain_word rfl
  joiner := fun _ h => Or.inl h
  filler := by decide +kernel

theorem style_ru : StyleOK Spec.ru u!"ru" (mkLangData Data.ru) where
  lang := rfl
  word := plain_word rfl
  joiner := fun _ h => Or.inl h
  filler := fun _ h => nomatch h

theorem style_uk : StyleOK Spec.uk u!"uk" (mkLangData Data.uk) where
  lang := rfl
  word := plain_word rfl
  joiner := fun _ h => Or.inl h
  filler := fun _ h => nomatch h

theorem style_hi : StyleOK Spec.hi u!"hi" (mkLangData Data.hi) where
  lang := rfl
  word := by
    intro c hc
    simp only [Spec.hi, hindiWordChar, Bool.and_eq_true, Bool.not_eq_true', bne_iff_ne] at hc
    refine ⟨?_, ?_⟩
    · show (if RE_BUG_LANGUAGES.elem u!"hi" = true then isSpace c else !isWord c) = false
      rw [if_pos (by decide)]; exact hc.1.1.1
    · simp [plainChar, hc]
  joiner := fun _ h => Or.inl h
  filler := fun _ h => nomatch h

/-- A fragment of text whose non-blank tokens are number words and skip tokens; `ks` are the number words. -/
structure Frag (l : PyStr) (ld : LangData) (s : PyStr) (ks : List Kind) : Prop where
  plain : ∀ c ∈ s, plainChar c = true
  ok : ∀ t ∈ (sol l s).map norm, numOrSkip ld t = true
  kinds : kinds ld ((sol l s).map norm) = ks

theorem Frag.nil (l : PyStr) (ld : LangData) : Frag l ld [] [] :=
  ⟨by simp, by simp, by simp⟩

theorem Frag.append_sep {l : PyStr} {ld : LangData} {a b : PyStr} {c : Nat} {ka kb kc : List Kind}
    (ha : Frag l ld a ka) (hc : sepChar l c = true) (hcf : Frag l ld [c] kc) (hb : Frag l ld b kb) :
    Frag l ld (a ++ c :: b) (ka ++ (kc ++ kb)) where
  plain := by
    intro x hx
    rcases List.mem_append.mp hx with h | h
    · exact ha.plain x h
    · rcases List.mem_cons.mp h with rfl | h
      · exact hcf.plain x (by simp)
      · exact hb.plain x h
  ok := by
    intro t ht
    rw [sol_append_sep l a b hc, List.map_append, List.map_append] at ht
    rcases List.mem_append.mp ht with h | h
    · exact ha.ok t h
    · rcases List.mem_append.mp h with h | h
      · exact hcf.ok t h
      · exact hb.ok t h
  kinds := by
    rw [sol_append_sep l a b hc, List.map_append, List.map_append, kinds_append, kinds_append, ha.kinds, hcf.kinds, hb.kinds]

theorem Frag.space {l : PyStr} {ld : LangData} {c : Nat} (hc : isSpace c = true) : Frag l ld [c] [] where
  plain := by intro x hx; simp at hx; rw [hx]; exact space_plain hc
  ok := by rw [sol_space l hc]; simp
  kinds := by rw [sol_space l hc]; simp

theorem nonsep_nonspace {l : PyStr} {c : Nat} (h : sepChar l c = false) : isSpace c = false := by
  cases hs : isSpace c with
  | false => rfl
  | true => rw [sepChar_of_space l hs] at h; cases h

theorem numOrSkip_blank {ld : LangData} (h : ld.WF) {t : PyStr} (ht : numOrSkip ld t = true) : blank t = false := by
  unfold numOrSkip at ht
  rw [Bool.or_eq_true] at ht
  rcases ht with ht | ht
  · exact key_blank h ht
  · exact skip_blank h ht

/-- A word that is a number word or a skip token. -/
theorem Frag.word {l : PyStr} {ld : LangData} (hwf : ld.WF) {v : PyStr}
    (hv : ∀ c ∈ v, sepChar l c = false ∧ plainChar c = true)
    (hn : numOrSkip ld (norm v) = true) : Frag l ld v (NumberParser.kinds ld [norm v]) where
  plain := fun c hc => (hv c hc).2
  ok := by
    have hb : blank v = false := by
      cases hb : blank v with
      | false => rfl
      | true => have := numOrSkip_blank hwf hn; rw [blank_norm hb] at this; cases this
    rw [sol_word l (fun c hc => (hv c hc).1) hb]
    simpa using hn
  kinds := by
    have hb : blank v = false := by
      cases hb : blank v with
      | false => rfl
      | true => have := numOrSkip_blank hwf hn; rw [blank_norm hb] at this; cases this
    rw [sol_word l (fun c hc => (hv c hc).1) hb]; rfl

theorem Frag.joiner {σ : Style} {l : PyStr} {ld : LangData} (h : StyleOK σ l ld) {c : Nat} (hc : σ.joiner c = true) :
    Frag l ld [c] [] ∧ sepChar l c = true := by
  rcases h.joiner c hc with hs | ⟨h1, h2, h3, h4⟩
  · exact ⟨Frag.space hs, sepChar_of_space l hs⟩
  · refine ⟨⟨by intro x hx; simp at hx; rw [hx]; exact h2, ?_, ?_⟩, h1⟩
    · intro t ht
      rw [sol_eq] at ht
      simp [hd_cons, stl_cons, h1, h3] at ht
      rw [ht]; unfold numOrSkip; rw [h4]; simp
    · have : sol l [c] = [[c]] := by
        rw [sol_eq]; simp [hd_cons, stl_cons, h1, h3]
      rw [this]
      exact kinds_skip (languageData_wf h.lang) h4

/-- A run of joiners between two fragments. -/
theorem Frag.append_joiners {σ : Style} {l : PyStr} {ld : LangData} (h : StyleOK σ l ld) {a b g : PyStr}
    {ka kb : List Kind} (ha : Frag l ld a ka) (hg : g ≠ []) (hgc : ∀ c ∈ g, σ.joiner c = true) (hb : Frag l ld b kb) :
    Frag l ld (a ++ g ++ b) (ka ++ kb) := by
  induction g generalizing a ka with
  | nil => exact absurd rfl hg
  | cons c cs ih =>
    obtain ⟨hc1, hc2⟩ := Frag.joiner h (hgc c List.mem_cons_self)
    cases cs with
    | nil =>
      have := Frag.append_sep ha hc2 hc1 hb
      simpa using this
    | cons d ds =>
      have h1 := Frag.append_sep ha hc2 hc1 (Frag.nil l ld)
      have := ih (a := a ++ [c]) (ka := ka) (by simpa using h1) (by simp) (fun x hx => hgc x (List.mem_cons_of_mem _ hx))
      simpa using this

theorem Frag.append_gap {σ : Style} {l : PyStr} {ld : LangData} (h : StyleOK σ l ld) {a b g : PyStr}
    {ka kb : List Kind} (ha : Frag l ld a ka) (hg : Gap σ g) (hb : Frag l ld b kb) :
    Frag l ld (a ++ g ++ b) (ka ++ kb) := by
  induction hg generalizing a ka with
  | sep hne hj => exact Frag.append_joiners h ha hne hj hb
  | @filler g f v rest hne hj hf hw _ ih =>
    have hsk : isSkipToken (norm v) ld = true := by
      have := h.filler f hf
      have he : norm v = norm f := hw.2
      rw [he]; exact this
    have hv := Frag.word (languageData_wf h.lang) (l := l) (fun c hc => h.word c (hw.1 c hc)) (by unfold numOrSkip; rw [hsk]; simp)
    rw [kinds_skip (languageData_wf h.lang) hsk] at hv
    have h1 := Frag.append_joiners h ha hne hj hv
    have := ih h1
    simpa using this

theorem Frag.append_spaces {l : PyStr} {ld : LangData} {a g : PyStr} {ka : List Kind} (ha : Frag l ld a ka)
    (hg : ∀ c ∈ g, isSpace c = true) : Frag l ld (a ++ g) ka := by
  induction g generalizing a ka with
  | nil => simpa using ha
  | cons c cs ih =>
    have hc := hg c List.mem_cons_self
    have h1 := Frag.append_sep ha (sepChar_of_space l hc) (Frag.space hc) (Frag.nil l ld)
    have := ih (a := a ++ [c]) (ka := ka) (by simpa using h1) (fun x hx => hg x (List.mem_cons_of_mem _ hx))
    simpa using this

theorem Frag.prepend_spaces {l : PyStr} {ld : LangData} {b g : PyStr} {kb : List Kind} (hb : Frag l ld b kb)
    (hg : ∀ c ∈ g, isSpace c = true) : Frag l ld (g ++ b) kb := by
  induction g with
  | nil => simpa using hb
  | cons c cs ih =>
    have hc := hg c List.mem_cons_self
    have h1 := Frag.append_sep (Frag.nil l ld) (sepChar_of_space l hc) (Frag.space hc)
      (ih (fun x hx => hg x (List.mem_cons_of_mem _ hx)))
    simpa using h1

/-- A word of the style that is a number word. -/
theorem Frag.key {σ : Style} {l : PyStr} {ld : LangData} (h : StyleOK σ l ld) {w v : PyStr} (hw : Writes σ w v)
    (hk : ld.allNumbers.mem (norm w) = true) : Frag l ld v [kindOf ld (norm w)] := by
  have he : norm v = norm w := hw.2
  have := Frag.word (languageData_wf h.lang) (l := l) (fun c hc => h.word c (hw.1 c hc)) (by unfold numOrSkip; rw [he, hk]; rfl)
  rw [he, kinds_key (languageData_wf h.lang) hk] at this
  exact this

/-- The class and value of each word. -/
def wordKinds (ld : LangData) (ws : List PyStr) : List Kind := ws.map (fun w => kindOf ld (norm w))

theorem Text.frag {σ : Style} {l : PyStr} {ld : LangData} (h : StyleOK σ l ld) {ws : List PyStr} {text : PyStr}
    (ht : Text σ ws text) (hk : ∀ w ∈ ws, ld.allNumbers.mem (norm w) = true) : Frag l ld text (wordKinds ld ws) := by
  induction ht with
  | last hw hs => exact Frag.append_spaces (Frag.key h hw (hk _ (by simp))) hs
  | @cons w v g rest ws hw hg _ ih =>
    exact Frag.append_gap h (Frag.key h hw (hk _ List.mem_cons_self)) hg
      (ih (fun x hx => hk x (List.mem_cons_of_mem _ hx)))

/-- A text that starts with a word of the style starts with that token. -/
theorem hd_prefix {l v rest : PyStr} (hv : ∀ c ∈ v, sepChar l c = false) (hr : ∀ c cs, rest = c :: cs → sepChar l c = true) :
    hd l (v ++ rest) = v := by
  cases rest with
  | nil => simp [hd_word l hv]
  | cons c cs => rw [hd_append_sep l v cs (hr c cs rfl), hd_word l hv]

theorem gap_head {σ : Style} {l : PyStr} {ld : LangData} (h : StyleOK σ l ld) {g : PyStr} (hg : Gap σ g) (b : PyStr) :
    ∀ c cs, g ++ b = c :: cs → sepChar l c = true := by
  intro c cs he
  cases hg with
  | sep hne hj =>
    cases g with
    | nil => exact absurd rfl hne
    | cons d ds => simp at he; rw [← he.1]; exact (Frag.joiner h (hj d List.mem_cons_self)).2
  | @filler g f v rest hne hj _ _ _ =>
    cases g with
    | nil => exact absurd rfl hne
    | cons d ds => simp at he; rw [← he.1]; exact (Frag.joiner h (hj d List.mem_cons_self)).2

/-- The first token of a text is its first word. -/
theorem Text.head {σ : Style} {l : PyStr} {ld : LangData} (h : StyleOK σ l ld) {ws : List PyStr} {text : PyStr}
    (ht : Text σ ws text) : ∃ w v ws', ws = w :: ws' ∧ Writes σ w v ∧ hd l text = v ∧ ∀ c ∈ v, c ∈ text := by
  cases ht with
  | @last w v trail hw hs =>
    refine ⟨w, v, [], rfl, hw, ?_, fun c hc => List.mem_append_left _ hc⟩
    apply hd_prefix (fun c hc => (h.word c (hw.1 c hc)).1)
    intro c cs he
    exact sepChar_of_space l (hs c (by rw [he]; exact List.mem_cons_self))
  | @cons w v g rest ws hw hg _ =>
    refine ⟨w, v, ws, rfl, hw, ?_, fun c hc => by simp [hc]⟩
    rw [List.append_assoc]
    apply hd_prefix (fun c hc => (h.word c (hw.1 c hc)).1)
    exact gap_head h hg rest

/-- The value of a sequence of number words. -/
def kindsValue (mg : Nat) (ks : List Kind) : Option Nat := (runR mg ks RState.init).map RState.value

theorem solid_frag {l : PyStr} {ld : LangData} (hl : languageData l = .ok ld) {s : PyStr} {ks : List Kind}
    (h : Frag l ld s ks) : dropApos s = s ∧ noShy s = s ∧ solidNumber ld (solid l (dropApos s)) = kindsValue ld.maximumGroupValue ks := by
  have h1 := dropApos_plain h.plain
  have h2 := noShy_plain h.plain
  have hwf := languageData_wf hl
  refine ⟨h1, h2, ?_⟩
  have h3 : solid l s = (sol l s).map norm := by
    rw [solid_eq, h2, List.filter_eq_self]
    intro t ht
    rw [numOrSkip_blank hwf (h.ok t ht)]; rfl
  rw [h1, h3, solidNumber_eq hwf.toDisjoint, if_pos (List.all_eq_true.mpr h.ok), h.kinds]
  rfl

/-- `parse_number` of a fragment with at least one token that does not start with a skip token. -/
theorem parseNumber_frag {l : PyStr} {ld : LangData} (hl : languageData l = .ok ld) {s : PyStr} {ks : List Kind}
    (h : Frag l ld s ks) (hb : blank s = false) (hn : isNumeric (strip s) = false)
    (hh : isSkipToken (norm (hd l s)) ld = false) :
    parseNumber s (some l) = .ok (kindsValue ld.maximumGroupValue ks) := by
  obtain ⟨h1, h2, h3⟩ := solid_frag hl h
  rw [parseNumber_solid hl hb hn, h3, h1, h2, hh]
  rfl

/-- A word whose comparison form is a number word or skip token has a character that is neither white space nor
numeric. -/
theorem word_char {l : PyStr} {ld : LangData} (hl : languageData l = .ok ld) {v : PyStr}
    (hv : ∀ c ∈ v, sepChar l c = false) (hn : numOrSkip ld (norm v) = true) :
    ∃ c ∈ v, isSpace c = false ∧ isNumericChar c = false := by
  obtain ⟨c, hc, hcn⟩ := numOrSkip_not_numeric hl hn
  by_cases hall : ∀ d ∈ v, isNumericChar d = true
  · rw [norm_numeric hall c hc] at hcn; cases hcn
  · simp only [Classical.not_forall] at hall
    obtain ⟨d, hd, hdn⟩ := hall
    exact ⟨d, hd, nonsep_nonspace (hv d hd), by simpa using hdn⟩

/-- Every written-out form of a non-empty list of number words is read as the value of these words. -/
theorem parseNumber_rendering {σ : Style} {l : PyStr} {ld : LangData} (h : StyleOK σ l ld) {ws : List PyStr}
    {text : PyStr} (hr : Rendering σ ws text) (hk : ∀ w ∈ ws, ld.allNumbers.mem (norm w) = true) :
    parseNumber text (some l) = .ok (kindsValue ld.maximumGroupValue (wordKinds ld ws)) := by
  obtain ⟨lead, rest, hlead, ht, rfl⟩ := hr
  have hwf := languageData_wf h.lang
  have hf := Frag.prepend_spaces (Text.frag h ht hk) hlead
  obtain ⟨w, v, ws', rfl, hw, hhd, hmem⟩ := Text.head h ht
  have hkv : ld.allNumbers.mem (norm v) = true := by
    have : norm v = norm w := hw.2
    rw [this]; exact hk w List.mem_cons_self
  obtain ⟨c, hc, hc1, hc2⟩ := word_char h.lang (fun c hc => (h.word c (hw.1 c hc)).1)
    (by unfold numOrSkip; rw [hkv]; rfl)
  have hcm : c ∈ lead ++ rest := List.mem_append_right _ (hmem c hc)
  apply parseNumber_frag h.lang hf (not_blank_of_mem hcm hc1) (not_numeric_of_mem hcm hc1 hc2)
  cases lead with
  | nil => rw [List.nil_append, hhd]; exact key_skip hwf hkv
  | cons d ds =>
    rw [List.cons_append, hd_cons, if_pos (sepChar_of_space l (hlead d List.mem_cons_self))]
    cases hs : isSkipToken (norm []) ld with
    | false => rfl
    | true => have := skip_blank hwf hs; cases this

end NumberParser
