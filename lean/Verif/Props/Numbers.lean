import Verif.Proofs.NumberText
import Verif.Proofs.Reading
import Verif.Props.Tables

/-!
# C21, C22, C36, C37, C48: what `parse_number` makes of words

`Spec.WordInput s`: the text is neither blank nor numeric.  `Spec.Tokens`, `Spec.Word`, `Spec.Cardinal`, `Spec.Skip`:
Verif/Spec/Words.lean.  `Spec.withoutApostrophes`, `Spec.LastWord`, `Spec.mayFollow`: Verif/Spec/Number.lean.
-/

namespace NumberParser.Props
open NumberParser NumberParser.Spec

set_option maxRecDepth 100000

/-! ## C21 -/

/-- **C21**: a token that is neither blank nor a cardinal number word nor a conjunction makes the text no number. -/
theorem c21_foreign_word (l : PyStr) (hl : l ∈ supported) (s : PyStr) (hs : WordInput s) (ts : List PyStr)
    (hts : Tokens l (withoutApostrophes s) ts) (t : PyStr) (ht : t ∈ ts) (h1 : ¬ BlankForm t) (h2 : ¬ Cardinal l t)
    (h3 : ¬ Skip l t) : parseNumber s (some l) = .ok none := by
  rw [parseNumber_input hl hs, solidNumber_eq (languageData_wf (supported_data hl)).toDisjoint]
  rw [cardinal_iff hl] at h2
  rw [skip_iff] at h3
  have : (solid l (dropApos s)).all (numOrSkip (mkLangData (file l))) = false := by
    rw [List.all_eq_false]
    refine ⟨norm t, ?_, ?_⟩
    · rw [dropApos_eq, mem_solid hts]; exact ⟨t, ht, rfl, h1⟩
    · unfold numOrSkip; simp [h2, h3]
  rw [this]
  simp

example : parseNumber u!"two hundred dogs" (some u!"en") = .ok none := by
  refine c21_foreign_word _ (by decide) _ ((wordInput_iff _).mpr ⟨by decide +kernel, by decide +kernel⟩) _ (tokens_tokenize _ _) u!"dogs"
    (by decide +kernel) ?_ ?_ ?_
  · rw [blankForm_iff]; decide +kernel
  · rw [cardinal_iff (by decide)]; decide +kernel
  · rw [skip_iff]; decide +kernel

/-- **C21**, for the first token: a conjunction at the very beginning makes the text no number. -/
theorem c21_leading_conjunction (l : PyStr) (hl : l ∈ supported) (s : PyStr) (hs : WordInput s) (t : PyStr) (ts : List PyStr)
    (hts : Tokens l (withoutApostrophes s) (t :: ts)) (h : Skip l t) : parseNumber s (some l) = .ok none := by
  rw [parseNumber_input hl hs]
  rw [tokens_iff, tokenize_eq, split_cons] at hts
  injection hts with h1 _
  rw [skip_iff, h1, ← dropApos_eq] at h
  rw [h]; rfl

example : parseNumber u!"and two" (some u!"en") = .ok none := by decide +kernel

/-! ## C22 -/

/-- **C22** is false: text without any number word can give 0. -/
theorem c22_refuted : parseNumber u!"-" (some u!"en") = .ok (some 0) ∧ parseNumber u!" and" (some u!"en") = .ok (some 0) ∧
    parseNumber u!"'" (some u!"en") = .ok (some 0) := by decide +kernel

theorem kinds_nil_of {ld : LangData} (hw : ld.WF) {ts : List PyStr} (h : ∀ t ∈ ts, isSkipToken t ld = true) : kinds ld ts = [] := by
  induction ts with
  | nil => rfl
  | cons t ts ih =>
    have := kinds_append ld [t] ts
    rw [List.singleton_append] at this
    rw [this, kinds_skip hw (h t (by simp)), ih (fun x hx => h x (List.mem_cons_of_mem _ hx))]; rfl

/-- **C22** A result other than 0 comes from a text with a number word, and all tokens are number
words, conjunctions or blank. -/
theorem c22_number_words (l : PyStr) (hl : l ∈ supported) (s : PyStr) (hs : WordInput s) (n : Nat)
    (h : parseNumber s (some l) = .ok (some n)) (ts : List PyStr) (hts : Tokens l (withoutApostrophes s) ts) :
    (∀ t ∈ ts, Cardinal l t ∨ Skip l t ∨ BlankForm t) ∧ (n ≠ 0 → ∃ t ∈ ts, Cardinal l t) := by
  obtain ⟨_, h2, r, h3, h4⟩ := (parseNumber_some hl hs).mp h
  have hw := languageData_wf (supported_data hl)
  rw [← dropApos_eq] at hts
  have hall := List.all_eq_true.mp h2
  have key : ∀ t ∈ ts, Cardinal l t ∨ Skip l t ∨ BlankForm t := by
    intro t ht
    by_cases hb : BlankForm t
    · exact Or.inr (Or.inr hb)
    · have := hall (norm t) ((mem_solid hts _).mpr ⟨t, ht, rfl, hb⟩)
      unfold numOrSkip at this
      rw [Bool.or_eq_true, ← cardinal_iff hl, ← skip_iff] at this
      exact this.elim Or.inl (fun h => Or.inr (Or.inl h))
  refine ⟨key, ?_⟩
  intro hn
  apply Classical.byContradiction
  intro hno
  apply hn
  have hk : kinds (mkLangData (file l)) (solid l (dropApos s)) = [] := by
    apply kinds_nil_of hw
    intro f hf
    obtain ⟨t, ht, rfl, hb⟩ := (mem_solid hts f).mp hf
    rcases key t ht with h | h | h
    · exact absurd ⟨t, ht, h⟩ hno
    · exact (skip_iff l t).mp h
    · exact absurd h hb
  rw [hk] at h3
  cases h3
  rw [← h4]; rfl

/-! ## C36, C37 -/

/-- Appending a number word to a text: one more step of the builder. -/
theorem append_step {L : Lang} (hL : L ∈ languages) {s g w : PyStr} {n : Nat} {k : Class} {v : Nat} (hs : WordInput s)
    (h : parseNumber s (some L.code) = .ok (some n)) (hne : g ≠ []) (hg : Blank g)
    (hw : ∀ c ∈ w, L.style.wordChar c = true) (hword : Word L.code k v w) :
    ∃ r, runR (mkLangData (file L.code)).maximumGroupValue (kinds (mkLangData (file L.code)) (solid L.code (dropApos s))) RState.init = some r ∧
      r.value = n ∧
      parseNumber (s ++ g ++ w) (some L.code) =
        .ok ((stepR (mkLangData (file L.code)).maximumGroupValue r (kindOfClass k v)).map RState.value) := by
  obtain ⟨hst, hsup⟩ := styleOK hL
  have hwf := languageData_wf (supported_data hsup)
  obtain ⟨h1, h2, r, h3, h4⟩ := (parseNumber_some hsup hs).mp h
  refine ⟨r, h3, h4, ?_⟩
  have hm := (allNumbers_iff hsup (norm w)).mpr ⟨k, v, hword⟩
  have hb := key_blank hwf hm
  have hnb : ¬ Blank w := by
    intro hb'
    rw [blank_norm ((blank_spec w).mpr hb')] at hb; cases hb
  obtain ⟨e1, e2⟩ := append_word (s := s) (l := L.code) hne hg (fun c hc => hst.word c (hw c hc)) hb
  rw [parseNumber_input hsup (wordInput_append hs.1 hg hne hnb), e1, e2, h1, solidNumber_eq hwf.toDisjoint, List.all_append, h2,
    kinds_append, kinds_key hwf hm, kindOf_class hsup (f := norm w) hword, runR_append, h3]
  have hall : [norm w].all (numOrSkip (mkLangData (file L.code))) = true := by simp [numOrSkip, hm]
  rw [hall]
  simp only [Bool.false_eq_true, if_false, Bool.and_self, if_true, Option.bind_some, runR]
  cases stepR (mkLangData (file L.code)).maximumGroupValue r (kindOfClass k v) <;> rfl

/-- **C36**: a scale word (other than one for 100) larger than the number so far multiplies it. -/
theorem c36_scale_multiplies (L : Lang) (hL : L ∈ languages) (s g w : PyStr) (n p : Nat) (hs : WordInput s)
    (h : parseNumber s (some L.code) = .ok (some n)) (hn : 0 < n) (hne : g ≠ []) (hg : Blank g)
    (hw : ∀ c ∈ w, L.style.wordChar c = true) (hword : Word L.code .scale p w) (hp : n < p) (h100 : p ≠ 100) :
    parseNumber (s ++ g ++ w) (some L.code) = .ok (some (n * p)) := by
  obtain ⟨r, _, h2, h3⟩ := append_step hL hs h hne hg hw hword
  rw [h3]
  unfold RState.value at h2
  have : largeK (kindOfClass .scale p) r.total r.grp = some p := by
    simp only [kindOfClass, largeK]
    rw [if_pos ⟨by omega, by omega, h100⟩]
  unfold stepR
  rw [this]
  simp [RState.value, h2]

example : parseNumber u!"two hundred and five" (some u!"en") = .ok (some 205) ∧ Word u!"en" .scale 1000000 u!"Million" ∧
    parseNumber u!"two hundred and five Million" (some u!"en") = .ok (some 205000000) :=
  ⟨by decide +kernel, ⟨u!"million", by decide +kernel, by decide +kernel⟩, by decide +kernel⟩

/-- The last word of a text in terms of the builder's run. -/
theorem last_kind {l : PyStr} (hl : l ∈ supported) {s t : PyStr} {k : Class} {v : Nat} (ht : LastWord l s t) (hw : Word l k v t) :
    ∃ ks, kinds (mkLangData (file l)) (solid l (dropApos s)) = ks ++ [kindOfClass k v] := by
  obtain ⟨a, b, hts, h1, _, h3⟩ := ht
  have hwf := languageData_wf (supported_data hl)
  rw [← dropApos_eq] at hts
  rw [solid_tokens hts, List.map_append, List.map_cons, List.filter_append, List.filter_cons]
  rw [blankForm_iff] at h1
  have hm := (allNumbers_iff hl (norm t)).mpr ⟨k, v, hw⟩
  rw [if_pos (by simpa using h1)]
  have hb : kinds (mkLangData (file l)) ((b.map norm).filter (fun t => !blank t)) = [] := by
    apply kinds_nil_of hwf
    intro f hf
    obtain ⟨hf, hbf⟩ := List.mem_filter.mp hf
    obtain ⟨x, hx, rfl⟩ := List.mem_map.mp hf
    rcases h3 x hx with h | h
    · rw [(blankForm_iff x).mp h] at hbf; cases hbf
    · exact (skip_iff l x).mp h
  refine ⟨kinds (mkLangData (file l)) ((a.map norm).filter (fun t => !blank t)), ?_⟩
  rw [kinds_append]
  have := kinds_append (mkLangData (file l)) [norm t] ((b.map norm).filter (fun t => !blank t))
  rw [List.singleton_append] at this
  rw [this, hb, kinds_key hwf hm, kindOf_class hl (f := norm t) hw]; simp

/-- **C37**: a unit, direct, tens or hundreds word is added if its class may follow that of the last word (anything
after a scale word; units, direct numbers and tens after hundreds; units after tens); otherwise the text is no longer a
single number. -/
theorem c37_word_adds (L : Lang) (hL : L ∈ languages) (s t g w : PyStr) (n p d : Nat) (k k' : Class) (hs : WordInput s)
    (h : parseNumber s (some L.code) = .ok (some n)) (hlast : LastWord L.code s t) (ht : Word L.code k p t)
    (hne : g ≠ []) (hg : Blank g) (hw : ∀ c ∈ w, L.style.wordChar c = true) (hword : Word L.code k' d w) (hk : k' ≠ .scale) :
    parseNumber (s ++ g ++ w) (some L.code) = .ok (if mayFollow k k' then some (n + d) else none) := by
  obtain ⟨_, hsup⟩ := styleOK hL
  obtain ⟨r, h1, h2, h3⟩ := append_step hL hs h hne hg hw hword
  rw [h3]
  obtain ⟨ks, hks⟩ := last_kind hsup hlast ht
  rw [hks] at h1
  have hp := runR_prev h1
  unfold stepR
  rw [hp]
  unfold RState.value at h2
  cases k <;> cases k' <;> simp_all [kindOfClass, largeK, validK, mayFollow, RState.value] <;> omega

/-- A text and its last word. -/
example : LastWord u!"en" u!"two hundred and " u!"hundred" := by
  refine ⟨[u!"two", u!" "], [u!" ", u!"and", u!" ", []], (c44_tokens _ _ _).mp (by decide +kernel), ?_, ?_, ?_⟩
  · rw [blankForm_iff]; decide +kernel
  · rw [skip_iff]; decide +kernel
  · intro x hx
    rw [blankForm_iff, skip_iff]
    revert x hx; decide +kernel

example : parseNumber u!"two hundred and five" (some u!"en") = .ok (some 205) ∧
    parseNumber u!"twenty two three" (some u!"en") = .ok none := by decide +kernel

/-! ## C48 -/

/-- **C48**: the value of a text of number words depends only on the classes and values of the words: synonyms and
inflected forms, gaps and case do not matter. -/
theorem c48_synonyms (L : Lang) (hL : L ∈ languages) (ws ws' : List PyStr) (cs : List (Class × Nat))
    (h : Classified L.code ws cs) (h' : Classified L.code ws' cs) (text text' : PyStr) (ht : Rendering L.style ws text)
    (ht' : Rendering L.style ws' text') : parseNumber text (some L.code) = parseNumber text' (some L.code) := by
  obtain ⟨hst, hsup⟩ := styleOK hL
  obtain ⟨h1, h2⟩ := classified_kinds hsup h
  obtain ⟨h3, h4⟩ := classified_kinds hsup h'
  rw [parseNumber_rendering hst ht h2, parseNumber_rendering hst ht' h4, h1, h3]

example : Classified u!"ru" [u!"две", u!"тысячи"] [(.unit, 2), (.scale, 1000)] ∧
    Classified u!"ru" [u!"два", u!"тысяч"] [(.unit, 2), (.scale, 1000)] :=
  ⟨.cons ⟨u!"две", by decide +kernel, by decide +kernel⟩ (.cons ⟨u!"тысячи", by decide +kernel, by decide +kernel⟩ .nil),
   .cons ⟨u!"два", by decide +kernel, by decide +kernel⟩ (.cons ⟨u!"тысяч", by decide +kernel, by decide +kernel⟩ .nil)⟩

end NumberParser.Props
