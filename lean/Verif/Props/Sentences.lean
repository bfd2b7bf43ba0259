import Verif.Proofs.Units

/-!
# C10, C17, C18, C38, C45: sentences

`Spec.Spells L n t`: the text `t` is a written-out form of the number `n` in the language `L` (Verif/Spec/Sentence.lean).
-/

namespace NumberParser.Props
open NumberParser NumberParser.Spec

set_option maxRecDepth 100000

/-! ## The usual texts are written-out forms -/

theorem phrase_ends {p : Nat → Bool} (hp : ∀ c, p c = true → isSpace c = false) {gap : PyStr → PyStr → PyStr} {ws : List PyStr}
    (hw : Chars p ws) (hne : ∀ w ∈ ws, w ≠ []) : EndsSolid (phrase gap ws) := by
  have key : ∀ ws : List PyStr, Chars p ws → (∀ w ∈ ws, w ≠ []) → ws ≠ [] → ∃ y c, phrase gap ws = y ++ [c] ∧ isSpace c = false := by
    intro ws
    induction ws with
    | nil => intro _ _ h; exact absurd rfl h
    | cons w ws ih =>
      intro hw hne _
      cases ws with
      | nil =>
        rcases List.eq_nil_or_concat w with rfl | ⟨y, c, rfl⟩
        · exact absurd rfl (hne [] (by simp))
        · exact ⟨y, c, by simp [phrase], hp c (hw (y.concat c) (by simp) c (by simp))⟩
      | cons w' ws =>
        obtain ⟨y, c, h1, h2⟩ := ih (fun x hx => hw x (List.mem_cons_of_mem _ hx)) (fun x hx => hne x (List.mem_cons_of_mem _ hx)) (by simp)
        exact ⟨w ++ gap w w' ++ y, c, by simp only [phrase]; rw [h1]; simp, h2⟩
  intro c rest he
  by_cases h : ws = []
  · subst h; simp [phrase] at he
  · obtain ⟨y, d, h1, h2⟩ := key ws hw hne h
    rw [h1] at he
    have := List.append_inj_right' he rfl
    simp at this; subst this; exact h2

theorem allNum_ne {ld : LangData} (h : ld.WF) {ws : List PyStr} (ha : AllNum ld ws) : ∀ w ∈ ws, w ≠ [] := by
  intro w hw e
  have := key_blank h (AllNum.mem h ha w hw)
  subst e; revert this; decide +kernel

theorem spells_enText (n : Nat) (h : n < 10 ^ 24) : Spells english n (enText n) :=
  ⟨h, ⟨_, form_words langOK_en h, enText_text h⟩, phrase_ends (p := isWord) (fun _ => word_not_space) (en_chars n) (allNum_ne wf_en (en_words h).2)⟩

theorem spells_esText (n : Nat) (h : n < 10 ^ 60) : Spells spanish n (esText n) :=
  ⟨h, ⟨_, form_words langOK_es h, phrase_text esGap_ok (es_chars n) (esWords_ne_nil h)⟩,
    phrase_ends (p := isWord) (fun _ => word_not_space) (es_chars n) (allNum_ne wf_es (es_words h).2)⟩

theorem spells_ruText (n : Nat) (h : n < 10 ^ 24) : Spells russian n (ruText n) :=
  ⟨h, ⟨_, form_words langOK_ru h, phrase_text (fun _ _ => gap_space (by decide)) (ru_chars n) (ruWords_ne_nil h)⟩,
    phrase_ends (p := isWord) (fun _ => word_not_space) (ru_chars n) (allNum_ne wf_ru (ru_words h).2)⟩

theorem spells_ukText (n : Nat) (h : n < 10 ^ 18) : Spells ukrainian n (ukText n) :=
  ⟨h, ⟨_, form_words langOK_uk h, phrase_text (fun _ _ => gap_space (by decide)) (uk_chars n) (ukWords_ne_nil h)⟩,
    phrase_ends (p := isWord) (fun _ => word_not_space) (uk_chars n) (allNum_ne wf_uk (uk_words h).2)⟩

/-! ## C45 -/

/-- **C45**: in a sentence, every spelled number is replaced by its decimal digits and the rest is kept, for every
sequence of parts (plain text, numbers, numbers followed by a full stop or comma) separated by single spaces, where a
number without punctuation is followed by ordinary text. -/
theorem c45_sentence (L : Lang) (hL : L ∈ wordLanguages) (ps : List Part) (h : Sentence L ps) :
    parse (spaced (ps.map Part.text)) (some L.code) = .ok (spaced (ps.map Part.result)) :=
  parse_sentence hL ps h

/-- A sentence that meets the hypothesis, for every pair of numbers. -/
example (m n : Nat) (hm : m < 10 ^ 24) (hn : n < 10 ^ 24) :
    parse (u!"(Bob) has " ++ enText m ++ u!" cats and " ++ enText n ++ u!".") (some u!"en") =
      .ok (u!"(Bob) has " ++ decDigits m ++ u!" cats and " ++ decDigits n ++ u!".") := by
  have plain : ∀ t : PyStr, t ≠ [] → t.all (fun c => c != 0xad) = true → (∀ c, t.head? = some c → isSpace c = false) →
      (∀ c, t.getLast? = some c → isSpace c = false) →
      (tokenize t u!"en").all (fun w => (isNumberToken (norm w) ldEn).isNone) = true → Part.OK english (.plain t) := by
    intro t h0 h1 h2 h3 h4
    refine ⟨h0, fun c rest e => h2 c (by rw [e]; rfl), fun c rest e => h3 c (by rw [e]; simp), ?_, ?_⟩
    · intro hm; have := List.all_eq_true.mp h1 _ hm; simp at this
    · intro ts hts w hw hn
      rw [tokens_iff] at hts; subst hts
      have h5 := List.all_eq_true.mp h4 w hw
      have h6 := (numberWord_iff (l := u!"en") (by decide) w).mp hn
      change (isNumberToken (norm w) ldEn).isSome = true at h6
      simp at h5
      rw [h5] at h6; cases h6
  have hcats : StartsOrdinary u!"en" u!"cats and" := by
    refine ⟨u!"cats", [u!" ", u!"and"], ⟨⟨99, by decide +kernel, by decide⟩, ?_, ?_⟩, Or.inl ((tokens_iff _ _ _).mpr (by decide +kernel))⟩
    · rw [numberWord_iff (by decide)]; decide +kernel
    · rw [skip_iff]; decide +kernel
  have := c45_sentence english (by simp [wordLanguages]) [.plain u!"(Bob) has", .number m (enText m), .plain u!"cats and", .ended n (enText n) 0x2e]
    ⟨plain _ (by decide) (by decide) (by decide) (by decide) (by decide +kernel), trivial,
      spells_enText m hm, hcats, plain _ (by decide) (by decide) (by decide) (by decide) (by decide +kernel), trivial,
      ⟨spells_enText n hn, Or.inl rfl⟩⟩
  simpa [spaced, Part.text, Part.result, english] using this

/-! ## C10 -/

/-- **C10**: a list of spelled numbers separated by ", " (or ". ") is converted element by element. -/
theorem c10_lists (L : Lang) (hL : L ∈ wordLanguages) (mark : Nat) (hm : mark = 0x2c ∨ mark = 0x2e)
    (items : List (Nat × PyStr)) (h : ∀ x ∈ items, Spells L x.1 x.2) :
    parse (listed mark (items.map (fun x => x.2))) (some L.code) = .ok (listed mark (items.map (fun x => decDigits x.1))) := by
  let parts : List (Nat × PyStr) → List Part := fun items =>
    items.dropLast.map (fun x => .ended x.1 x.2 mark) ++ (items.getLast?.map (fun x => Part.number x.1 x.2)).toList
  have hparts : ∀ x y (items : List (Nat × PyStr)), parts (x :: y :: items) = .ended x.1 x.2 mark :: parts (y :: items) := by
    intro x y items
    simp only [parts]
    rw [List.dropLast_cons_cons, List.getLast?_cons_cons]
    rfl
  have hm' : mark = 0x2e ∨ mark = 0x2c := hm.symm
  have hp : ∀ items : List (Nat × PyStr), (∀ x ∈ items, Spells L x.1 x.2) → Sentence L (parts items) ∧
      spaced ((parts items).map Part.text) = listed mark (items.map (fun x => x.2)) ∧
      spaced ((parts items).map Part.result) = listed mark (items.map (fun x => decDigits x.1)) := by
    intro items
    induction items with
    | nil => intro _; exact ⟨trivial, rfl, rfl⟩
    | cons x items ih =>
      intro h
      cases items with
      | nil => exact ⟨h x (by simp), rfl, rfl⟩
      | cons y items =>
        obtain ⟨h1, h2, h3⟩ := ih (fun z hz => h z (List.mem_cons_of_mem _ hz))
        rw [hparts]
        have hne : parts (y :: items) ≠ [] := by simp [parts]
        refine ⟨?_, ?_, ?_⟩
        · cases hq : parts (y :: items) with
          | nil => exact absurd hq hne
          | cons q qs => rw [hq] at h1; exact ⟨⟨h x (by simp), hm'⟩, trivial, h1⟩
        · rw [List.map_cons, spaced_cons _ (by simpa using hne), h2]; simp [listed, Part.text]
        · rw [List.map_cons, spaced_cons _ (by simpa using hne), h3]; simp [listed, Part.result]
  obtain ⟨h1, h2, h3⟩ := hp items h
  rw [← h2, ← h3]
  exact parse_sentence hL _ h1

/-- The English lists of the property. -/
theorem c10_english (ns : List Nat) (h : ∀ n ∈ ns, n < 10 ^ 24) :
    parse (listed 0x2c (ns.map enText)) (some u!"en") = .ok (listed 0x2c (ns.map decDigits)) := by
  have := c10_lists english (by simp [wordLanguages]) 0x2c (Or.inl rfl) (ns.map (fun n => (n, enText n))) (by
    intro x hx
    obtain ⟨n, hn, rfl⟩ := List.mem_map.mp hx
    exact spells_enText n (h n hn))
  rw [List.map_map, List.map_map] at this
  exact this

example : listed 0x2c ([21, 100, 3000000].map enText) = u!"twenty-one, one hundred, three million" ∧
    listed 0x2c ([21, 100, 3000000].map decDigits) = u!"21, 100, 3000000" := by decide +kernel

/-! ## C17 -/

/-- **C17**: sentences are converted independently: for every text `a` and every text `b` that does not start with white
space (soft hyphens not counted), `parse(a + '.' + b) == parse(a + '.') + parse(b)`; the same for a comma. -/
theorem c17_concat (l : PyStr) (hl : l ∈ [u!"en", u!"es", u!"ru", u!"uk"]) (a b : PyStr) (mark : Nat) (hm : mark = 0x2e ∨ mark = 0x2c)
    (hb : StartsSolid (withoutSoftHyphens b)) :
    ∃ x y, parse (a ++ [mark]) (some l) = .ok x ∧ parse b (some l) = .ok y ∧ parse (a ++ [mark] ++ b) (some l) = .ok (x ++ y) := by
  have hs : l ∈ supported := by revert l; decide
  have hh : l ≠ u!"hi" := by revert l; decide
  have hd := supported_data hs
  exact ⟨_, _, parse_eq hd _, parse_eq hd _, parse_concat hd hh a b hm hb _ _ (parse_eq hd _) (parse_eq hd _)⟩

example : parse u!"I have two hundred." (some u!"en") = .ok u!"I have 200." ∧ parse u!"One more" (some u!"en") = .ok u!"1 more" ∧
    parse u!"I have two hundred.One more" (some u!"en") = .ok u!"I have 200.1 more" := by decide +kernel

/-! ## C18 -/

/-- **C18**: if `parse_number` reads a text without apostrophes, whose first token that is not white space is a cardinal
word, as the number `n`, then `parse` returns the decimal digits of `n`. -/
theorem c18_parse_agrees (l : PyStr) (hl : l ∈ supported) (s : PyStr) (lead rest : List PyStr) (w : PyStr)
    (ht : Tokens l s (lead ++ w :: rest)) (hlead : ∀ t ∈ lead, ∀ c ∈ t, isSpace c = true) (hw : Cardinal l w)
    (ha : 0x27 ∉ s ∧ 0x2019 ∉ s) (n : Nat) (hn : parseNumber s (some l) = .ok (some n)) :
    parse s (some l) = .ok (decDigits n) := by
  rw [tokens_iff] at ht
  refine parse_agrees (supported_data hl) s lead rest w ht.symm (fun t ht => ?_) ((cardinal_iff hl w).mp hw) ?_ hn
  · rw [blank_iff, List.all_eq_true]; exact hlead t ht
  · unfold dropApos
    rw [List.filter_eq_self.mpr, List.filter_eq_self.mpr]
    · intro c hc; simp; intro e; exact ha.1 (e ▸ hc)
    · intro c hc
      simp; intro e; exact ha.2 (e ▸ (List.mem_filter.mp hc).1)

example : parse u!" Twenty-two  thousand and one" (some u!"en") = .ok u!"22001" :=
  c18_parse_agrees u!"en" (by decide) _ [[], u!" "] [u!"-", u!"two", u!" ", [], u!" ", u!"thousand", u!" ", u!"and", u!" ", u!"one"] u!"Twenty"
    ((tokens_iff _ _ _).mpr (by decide +kernel)) (by decide) ((cardinal_iff (by decide) _).mpr (by decide +kernel)) (by decide) 22001
    (by decide +kernel)

/-! ## C38 -/

/-- `w` is a unit or teen word of value `v`, written with word characters. -/
def Small (L : Lang) (w : PyStr) (v : Nat) : Prop :=
  (∀ c ∈ w, L.style.wordChar c = true) ∧ (Word L.code .unit v w ∨ Word L.code .direct v w)

/-- **C38**: unit and teen words separated by white space are never merged: `parse` gives their separate values, and
`parse_number` rejects two or more of them. -/
theorem c38_units_not_merged (L : Lang) (hL : L ∈ languages) (ws : List (PyStr × Nat)) (t : PyStr)
    (ht : Separated (ws.map (fun x => x.1)) t) (h : ∀ x ∈ ws, Small L x.1 x.2) :
    parse t (some L.code) = .ok (spaced (ws.map (fun x => decDigits x.2))) ∧
    (2 ≤ ws.length → parseNumber t (some L.code) = .ok none) := by
  have hsup := (styleOK hL).2
  have := small_separate hL (vs := ws.map (fun x => x.2)) ht (by
    intro w hw
    obtain ⟨x, hx, rfl⟩ := List.mem_map.mp hw
    exact (h x hx).1) (by
    rw [List.map_map, List.map_map]
    apply List.map_congr_left
    intro x hx
    rcases (h x hx).2 with hk | hk
    · have := kindOf_word hsup hk
      simp only [Function.comp]
      rw [show norm x.1 = form x.1 from rfl, this]; rfl
    · have := kindOf_word hsup hk
      simp only [Function.comp]
      rw [show norm x.1 = form x.1 from rfl, this]; rfl)
  rw [List.map_map, List.length_map] at this
  exact this

example : Separated [u!"Two", u!"eleven", u!"two"] u!"Two eleven \t two" ∧ Small english u!"Two" 2 ∧ Small english u!"eleven" 11 := by
  refine ⟨Separated.cons (w := u!"Two") (g := u!" ") (rest := u!"eleven \t two") (by decide) (by decide)
    (Separated.cons (w := u!"eleven") (g := u!" \t ") (rest := u!"two") (by decide) (by decide) Separated.one), ?_, ?_⟩
  · exact ⟨by decide +kernel, Or.inl ⟨u!"two", by decide +kernel, by decide +kernel⟩⟩
  · exact ⟨by decide +kernel, Or.inr ⟨u!"eleven", by decide +kernel, by decide +kernel⟩⟩

end NumberParser.Props
