import Verif.Proofs.Package
import Verif.Props.VocabularyText

/-!
# C82: adding and removing languages

The parser with any list of languages and any data modules for them (Model/Package): what a call gives depends only on the module of the
language it names or that is detected.  Specification: Verif/Spec/Package.lean.
-/

namespace NumberParser.Props
open NumberParser Gen Spec

/-- With the five languages of the repository these are the functions of the parser. -/
theorem c82_repository (s : PyStr) (l : Option PyStr) :
    parseIn repository s l = parse s l ∧ parseNumberIn repository s l = parseNumber s l ∧
    parseOrdinalIn repository s l = parseOrdinal s l ∧ parseFractionIn repository s l = parseFraction s l := by
  refine ⟨?_, repository_number s l, ?_, ?_⟩
  · unfold parseIn parse
    simp only [repository_resolve, repository_data]
  · unfold parseOrdinalIn parseOrdinal
    simp only [repository_resolve, repository_data, repository_number]
  · unfold parseFractionIn parseFraction
    simp only [repository_resolve, repository_loop]

/-- **C82** A call that names a language depends on the module of this language only, not on the others or on their order. -/
theorem c82_named (p q : Package) (hp : Distinct p) (hq : Distinct q) (l : PyStr) (h : Agree p q l) (s : PyStr) :
    SameResults p q s (some l) :=
  same_of (by unfold languageDataIn; rw [find_agree hp hq h]) s

/-- **C82** So a language can be added to those of the repository, or all the others be removed, without any effect on calls that name
one of the five. -/
theorem c82_five (q : Package) (hq : Distinct q) (l : PyStr) (hl : l ∈ supported) (h : (l, file l) ∈ q) (s : PyStr) :
    parseIn q s (some l) = parse s (some l) ∧ parseNumberIn q s (some l) = parseNumber s (some l) ∧
    parseOrdinalIn q s (some l) = parseOrdinal s (some l) ∧ parseFractionIn q s (some l) = parseFraction s (some l) := by
  have hd : languageDataIn q l = languageDataIn repository l := by
    rw [languageDataIn_mem hq h, languageDataIn_mem repository_distinct (repository_mem hl)]
  obtain ⟨a1, a2, a3, a4⟩ := same_of hd s
  obtain ⟨b1, b2, b3, b4⟩ := c82_repository s (some l)
  exact ⟨a1.trans b1, a2.trans b2, a3.trans b3, a4.trans b4⟩

/-- **C82** With a language that is not in the list, the functions raise the `ValueError` (`parse_number` only for texts that are neither
blank nor numeric). -/
theorem c82_unsupported (p : Package) (l : PyStr) (h : l ∉ p.map Prod.fst) (s : PyStr) :
    parseIn p s (some l) = .error .unsupportedLanguage ∧ parseOrdinalIn p s (some l) = .error .unsupportedLanguage ∧
    (WordInput s → parseNumberIn p s (some l) = .error .unsupportedLanguage) := by
  have hd := languageDataIn_none h
  refine ⟨?_, ?_, ?_⟩
  · unfold parseIn resolveLanguageIn
    simp only [bind, Except.bind, hd]
  · unfold parseOrdinalIn resolveLanguageIn
    simp only [bind, Except.bind, hd]
  · intro hs
    have := (wordInput_iff s).mp hs
    unfold parseNumberIn resolveLanguageIn
    simp only [bind, Except.bind, hd, this.1, this.2, Bool.false_eq_true, if_false]

/-- **C82** What `parse` makes of a text in a language with a tidy and moderate module is what the rules of C81 say, ... -/
theorem c82_converts (p : Package) (hp : Distinct p) (l : PyStr) (i : Info) (h : (l, i) ∈ p) (hi : Tidy i) (hm : Moderate i)
    (s : PyStr) (ts : List PyStr) (hts : Tokens l s ts) (out : PyStr) :
    parseIn p s (some l) = .ok out ↔ ∃ raw, ConvertedOf i ts raw ∧ out = strip raw := by
  rw [parseIn_with hp h]
  exact c81_exact i hi hm l s ts hts out

/-- **C82** ... and what `parse_number` reads is what those of C80 say. -/
theorem c82_reads (p : Package) (hp : Distinct p) (l : PyStr) (i : Info) (h : (l, i) ∈ p) (hi : Sensible i) (s t : PyStr) (ts : List PyStr)
    (n : Nat) (hs : WordInput s) (ht : Tokens l (withoutApostrophes s) (t :: ts)) :
    parseNumberIn p s (some l) = .ok (some n) ↔
      form t ∉ i.skipTokens ∧ n < 10 ^ 4300 ∧ ∃ ws, OnlyWordsOf i (t :: ts) ws ∧ ReadAs i ws n := by
  rw [parseNumberIn_with hp h]
  exact c80_reads i hi l s t ts n hs ht

/-- **C82** Every text has exactly one detected language, ... -/
theorem c82_one (p : Package) (hp : Distinct p) (hne : p ≠ []) (ht : ∀ e ∈ p, Tidy e.2) (s : PyStr) :
    ∃ l, DetectedIn p s l ∧ ∀ l', DetectedIn p s l' → l' = l := by
  obtain ⟨l, _, h⟩ := detectedIn_model hp hne ht s
  exact ⟨l, h, fun l' h' => detectedIn_unique ht h' h⟩

/-- **C82** ... and a call that names no language gives what the same call gives for this language. -/
theorem c82_detected (p : Package) (hp : Distinct p) (hne : p ≠ []) (ht : ∀ e ∈ p, Tidy e.2) (s l : PyStr) (h : DetectedIn p s l) :
    parseIn p s none = parseIn p s (some l) ∧ parseNumberIn p s none = parseNumberIn p s (some l) ∧
    parseOrdinalIn p s none = parseOrdinalIn p s (some l) ∧ parseFractionIn p s none = parseFractionIn p s (some l) :=
  none_some hp hne ht h

/-- **C82** Removing languages other than the detected one has no effect. -/
theorem c82_removed (p q : Package) (hs : p.Sublist q) (hq : Distinct q) (ht : ∀ e ∈ q, Tidy e.2) (s l : PyStr) (h : DetectedIn q s l)
    (hl : l ∈ p.map Prod.fst) : SameResults p q s none := by
  have hne : p ≠ [] := by rintro rfl; cases hl
  have hqe : q ≠ [] := by rintro rfl; exact hne (List.sublist_nil.mp hs)
  have ha := agree_sublist hs hq hl
  have hp : Distinct p := List.Sublist.nodup (hs.map _) hq
  have hd : DetectedIn p s l := detectedIn_sublist hs hq ht h (fun i hi _ => (ha i).mpr hi)
  exact same_none hp hne (fun e he => ht e (hs.subset he)) hq hqe ht hd h ha

/-- **C82** Adding languages, anywhere in the list, has no effect on a text if each of them recognises none of its tokens, or fewer than
one of the old languages. -/
theorem c82_added (p q : Package) (hs : p.Sublist q) (hq : Distinct q) (ht : ∀ e ∈ q, Tidy e.2) (he : u!"en" ∈ p.map Prod.fst) (s : PyStr)
    (hx : ∀ e ∈ q, e ∉ p → ScoreIn e s 0 ∨ ∃ e' ∈ p, Better s e' e) : SameResults p q s none := by
  have hne : p ≠ [] := by rintro rfl; cases he
  have hqe : q ≠ [] := by rintro rfl; exact hne (List.sublist_nil.mp hs)
  have hp : Distinct p := List.Sublist.nodup (hs.map _) hq
  have htp : ∀ e ∈ p, Tidy e.2 := fun e he => ht e (hs.subset he)
  obtain ⟨l, _, hd⟩ := detectedIn_model hp hne htp s
  have ha := agree_sublist hs hq (detectedIn_named he hd)
  exact same_none hp hne htp hq hqe ht hd (detectedIn_superlist hs hne hq ht hd hx) ha

/-- **C82** A language added at the end changes a result only if it recognises more tokens than every old language; ... -/
theorem c82_last_unchanged (p : Package) (n : PyStr × Info) (hq : Distinct (p ++ [n])) (ht : ∀ e ∈ p ++ [n], Tidy e.2)
    (he : u!"en" ∈ p.map Prod.fst) (s : PyStr) (e : PyStr × Info) (hep : e ∈ p) (hb : ¬ Better s n e) : SameResults p (p ++ [n]) s none := by
  have hs : p.Sublist (p ++ [n]) := List.sublist_append_left p [n]
  have hne : p ++ [n] ≠ [] := by simp
  obtain ⟨l, _, hd⟩ := detectedIn_model hq hne ht s
  refine c82_removed p (p ++ [n]) hs hq ht s l hd ?_
  rcases detectedIn_scores ht hd with ⟨a, i, b, hab, h0, h1, h2⟩ | ⟨rfl, _⟩
  · have hm : (l, i) ∈ p ++ [n] := by rw [hab]; simp
    rcases List.mem_append.mp hm with h | h
    · exact List.mem_map.mpr ⟨_, h, rfl⟩
    · exfalso
      rw [List.mem_singleton] at h
      subst h
      rw [better_iff (ht (l, i) (by simp)) (ht e (by simp [hep]))] at hb
      have hea : e ∈ a ∨ e = (l, i) ∨ e ∈ b := by
        have : e ∈ a ++ (l, i) :: b := by rw [← hab]; simp [hep]
        simpa using this
      have hnb : b = [] := by
        rcases List.eq_nil_or_concat b with h | ⟨b', x, h⟩
        · exact h
        · exfalso
          rw [List.concat_eq_append] at h
          subst h
          have hab' : p ++ [(l, i)] = (a ++ (l, i) :: b') ++ [x] := by rw [hab]; simp
          obtain ⟨h3, h4⟩ := List.append_inj' hab' rfl
          have h4 : x = (l, i) := by simpa using h4.symm
          unfold Distinct at hq
          rw [hab, h4, List.map_append, List.map_cons, List.nodup_append, List.nodup_cons] at hq
          exact hq.2.1.1 (List.mem_map.mpr ⟨(l, i), by simp, rfl⟩)
      subst hnb
      have hpa : p = a := (List.append_inj' hab rfl).1
      subst hpa
      exact hb (h1 e hep)
  · exact he

/-- **C82** ... in this case it is the detected one. -/
theorem c82_last_taken (p : Package) (l : PyStr) (i : Info) (hne : p ≠ []) (hq : Distinct (p ++ [(l, i)])) (ht : ∀ e ∈ p ++ [(l, i)], Tidy e.2)
    (s : PyStr) (hb : ∀ e ∈ p, Better s (l, i) e) : DetectedIn (p ++ [(l, i)]) s l := by
  refine detectedIn_of_scores ht (Or.inl ⟨p, i, [], rfl, ?_, ?_, by simp⟩)
  · cases p with
    | nil => exact absurd rfl hne
    | cons e p =>
      have := (better_iff (ht (l, i) (by simp)) (ht e (by simp)) s).mp (hb e (by simp))
      omega
  · intro e he
    exact (better_iff (ht (l, i) (by simp)) (ht e (by simp [he])) s).mp (hb e he)

/-- The modules of the repository are tidy. -/
theorem repository_tidy : ∀ e ∈ repository, Tidy e.2 := by
  intro e he
  obtain ⟨l, hl, rfl⟩ := List.mem_map.mp he
  exact (c81_supported l hl).1

/-- The five languages and Portuguese, with the module in the repository that is not enabled -/
def withPortuguese : Package := repository ++ [(u!"pt", portuguese)]

theorem withPortuguese_distinct : Distinct withPortuguese := by
  unfold Distinct withPortuguese
  rw [List.map_append, repository_names]
  decide +kernel

theorem withPortuguese_tidy : ∀ e ∈ withPortuguese, Tidy e.2 := by
  intro e he
  rcases List.mem_append.mp he with h | h
  · exact repository_tidy e h
  · rw [List.mem_singleton] at h
    subst h
    exact tidy_portuguese.1

set_option maxRecDepth 100000 in
/-- **C82** For example, with Portuguese as sixth language, Portuguese texts would be converted that are taken for Spanish now, ... -/
theorem c82_portuguese : parse u!"Dois mil gatos, sete cães" none = .ok u!"Dois 1000 gatos, sete cães" ∧
    parseIn withPortuguese u!"Dois mil gatos, sete cães" none = .ok u!"2000 gatos, 7 cães" := by
  constructor <;> decide +kernel

set_option maxRecDepth 100000 in
/-- **C82** ... and no Spanish text would be taken for Portuguese that is wholly recognised in Spanish. -/
example : SameResults repository withPortuguese u!"Dos mil veintidós gatos" none :=
  c82_last_unchanged repository (u!"pt", portuguese) withPortuguese_distinct withPortuguese_tidy (by rw [repository_names]; decide +kernel) _
    (u!"es", file u!"es") (repository_mem (by decide +kernel))
    (by
      rw [better_iff tidy_portuguese.1 (c81_supported u!"es" (by decide +kernel)).1]
      decide +kernel)

set_option maxRecDepth 100000 in
/-- A language that recognises nothing of an English text does not matter, wherever it is put. -/
example : SameResults repository ((u!"pt", portuguese) :: repository) u!"twenty-two cats" none :=
  c82_added repository _ (List.sublist_cons_self _ _)
    (by unfold Distinct; rw [List.map_cons, repository_names]; decide +kernel)
    (by
      intro e he
      rcases List.mem_cons.mp he with rfl | he
      · exact tidy_portuguese.1
      · exact repository_tidy e he)
    (by rw [repository_names]; decide +kernel) _
    (by
      intro e he hn
      rcases List.mem_cons.mp he with rfl | he
      · exact Or.inl ((scoreIn_iff tidy_portuguese.1 _ _).mpr (by decide +kernel))
      · exact absurd he hn)

set_option maxRecDepth 100000 in
/-- English, Spanish and Hindi alone give the same for a Spanish text. -/
example : SameResults (repository.take 3) repository u!"tres gatos" none := by
  refine c82_removed _ _ (List.take_sublist 3 _) repository_distinct repository_tidy _ u!"es" ?_ (by rw [List.map_take, repository_names]; decide +kernel)
  obtain ⟨l, h1, h2⟩ := detectedIn_model repository_distinct (by decide) repository_tidy u!"tres gatos"
  have : validTokensByLanguageIn repository u!"tres gatos" = .ok u!"es" := by decide +kernel
  rw [this] at h1
  injection h1 with h1
  rw [h1]; exact h2

end NumberParser.Props
