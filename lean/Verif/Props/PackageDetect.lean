import Verif.Proofs.PackageDetect
import Verif.Props.VocabularyApart
import Verif.Props.VocabularyOutput
import Verif.Proofs.AutoText

/-!
# C96: language detection of composed texts, with any list of languages

Specification: Verif/Spec/Package.lean (`ScoreIn`, `DetectedIn`).
-/

set_option maxRecDepth 100000

namespace NumberParser.Props
open NumberParser Gen Spec

/-- **C96** The recognised tokens of two texts with white space between them add up, in each language. -/
theorem c96_score (e : PyStr × Info) (ht : Tidy e.2) (a g b : PyStr) (hg : WhiteSpace g) (m n : Nat) (ha : ScoreIn e a m) (hb : ScoreIn e b n) :
    ScoreIn e (a ++ g ++ b) (m + n) := by
  rw [scoreIn_iff ht] at *
  rw [scoreIn_gap ht a b hg, ha, hb]

/-- **C96** Text no language recognises anything of does not influence the detection, in front or behind. -/
theorem c96_neutral (p : Package) (ht : ∀ e ∈ p, Tidy e.2) (a g b l : PyStr) (hg : WhiteSpace g) (hb : ∀ e ∈ p, ScoreIn e b 0) :
    (DetectedIn p (a ++ g ++ b) l ↔ DetectedIn p a l) ∧ (DetectedIn p (b ++ g ++ a) l ↔ DetectedIn p a l) := by
  have e1 : ∀ e ∈ p, scoreIn (a ++ g ++ b) e = scoreIn a e := by
    intro e he; rw [scoreIn_gap (ht e he) _ _ hg, (scoreIn_iff (ht e he) b 0).mp (hb e he), Nat.add_zero]
  have e2 : ∀ e ∈ p, scoreIn (b ++ g ++ a) e = scoreIn a e := by
    intro e he; rw [scoreIn_gap (ht e he) _ _ hg, (scoreIn_iff (ht e he) b 0).mp (hb e he), Nat.zero_add]
  exact ⟨⟨detectedIn_same ht e1, detectedIn_same ht (fun e he => (e1 e he).symm)⟩,
    detectedIn_same ht e2, detectedIn_same ht (fun e he => (e2 e he).symm)⟩

/-- **C96** If the same language is detected for two texts, it is detected for the two together. -/
theorem c96_join (p : Package) (hp : Distinct p) (ht : ∀ e ∈ p, Tidy e.2) (a g b l : PyStr) (hg : WhiteSpace g) (ha : DetectedIn p a l)
    (hb : DetectedIn p b l) : DetectedIn p (a ++ g ++ b) l := by
  rcases detectedIn_scores ht ha with ⟨x, i, y, hs, h0, h1, h2⟩ | ⟨_, hz⟩
  · rcases detectedIn_scores ht hb with ⟨x', i', y', hs', _, h1', h2'⟩ | ⟨_, hz⟩
    · obtain ⟨rfl, rfl, rfl⟩ := split_distinct hp hs hs'
      apply detectedIn_of_scores ht
      have hm : ∀ e, e ∈ x ++ (l, i) :: y → Tidy e.2 := fun e he => ht e (by rw [hs]; exact he)
      have hl := hm (l, i) (by simp)
      refine Or.inl ⟨x, i, y, hs, ?_, ?_, ?_⟩
      · rw [scoreIn_gap hl _ _ hg]; omega
      · intro e he
        rw [scoreIn_gap hl _ _ hg, scoreIn_gap (hm e (by simp [he])) _ _ hg]
        have := h1 e he; have := h1' e he; omega
      · intro e he
        rw [scoreIn_gap hl _ _ hg, scoreIn_gap (hm e (by simp [he])) _ _ hg]
        have := h2 e he; have := h2' e he; omega
    · exact ((c96_neutral p ht a g b l hg (fun e he => (scoreIn_iff (ht e he) b 0).mpr (hz e he))).1).mpr ha
  · exact ((c96_neutral p ht b g a l hg (fun e he => (scoreIn_iff (ht e he) a 0).mpr (hz e he))).2).mpr hb

/-- **C96** The order of the texts does not matter. -/
theorem c96_swap (p : Package) (ht : ∀ e ∈ p, Tidy e.2) (a g g' b l : PyStr) (hg : WhiteSpace g) (hg' : WhiteSpace g') :
    DetectedIn p (a ++ g ++ b) l → DetectedIn p (b ++ g' ++ a) l :=
  detectedIn_same ht (fun e he => by rw [scoreIn_gap (ht e he) _ _ hg, scoreIn_gap (ht e he) _ _ hg', Nat.add_comm])

/-- **C96** A text of which only one language recognises something is of this language: the functions give without a language what they
give with it. -/
theorem c96_single (p : Package) (hp : Distinct p) (ht : ∀ e ∈ p, Tidy e.2) (s l : PyStr) (i : Info) (hl : (l, i) ∈ p)
    (hk : ¬ ScoreIn (l, i) s 0) (h : ∀ e ∈ p, e.1 ≠ l → ScoreIn e s 0) : DetectedIn p s l ∧
    parseIn p s none = parseIn p s (some l) ∧ parseNumberIn p s none = parseNumberIn p s (some l) ∧
    parseOrdinalIn p s none = parseOrdinalIn p s (some l) ∧ parseFractionIn p s none = parseFractionIn p s (some l) := by
  obtain ⟨x, y, hs⟩ := List.append_of_mem hl
  have hn := hp
  unfold Distinct at hn
  rw [hs, List.map_append, List.map_cons] at hn
  have hx : ∀ e ∈ x, scoreIn s e = 0 := by
    intro e he
    have hm : e ∈ p := by rw [hs]; simp [he]
    refine (scoreIn_iff (ht e hm) s 0).mp (h e hm (fun e' => ?_))
    exact (List.nodup_append.mp hn).2.2 e.1 (List.mem_map.mpr ⟨e, he, rfl⟩) l (by simp) e'
  have hy : ∀ e ∈ y, scoreIn s e = 0 := by
    intro e he
    have hm : e ∈ p := by rw [hs]; simp [he]
    refine (scoreIn_iff (ht e hm) s 0).mp (h e hm (fun e' => ?_))
    have := (List.nodup_append.mp hn).2.1
    rw [List.nodup_cons] at this
    exact this.1 (List.mem_map.mpr ⟨e, he, e'⟩)
  rw [scoreIn_iff (ht _ hl)] at hk
  have hd : DetectedIn p s l := detectedIn_of_scores ht (Or.inl ⟨x, i, y, hs, by omega, fun e he => by rw [hx e he]; omega,
    fun e he => by rw [hy e he]; omega⟩)
  exact ⟨hd, c82_detected p hp (by rintro rfl; cases hl) ht s l hd⟩

/-- **C96** A language that recognises every token any language recognises, and for each language in front of it in the list a further one,
is detected (no language is called `hi`, so that all languages have the same tokens). -/
theorem c96_covers (before after : Package) (l : PyStr) (i : Info) (ht : ∀ e ∈ before ++ (l, i) :: after, Tidy e.2)
    (hhi : ∀ e ∈ before ++ (l, i) :: after, e.1 ≠ u!"hi") (s : PyStr) (ts : List PyStr) (hts : Tokens l s ts)
    (h : ∀ e ∈ before ++ (l, i) :: after, ∀ t ∈ ts, RecognisedOf e.2 t → RecognisedOf i t) (hsome : ∃ t ∈ ts, RecognisedOf i t)
    (hmore : ∀ e ∈ before, ∃ t ∈ ts, RecognisedOf i t ∧ ¬ RecognisedOf e.2 t) : DetectedIn (before ++ (l, i) :: after) s l := by
  have htok : ∀ e ∈ before ++ (l, i) :: after, ts = tokenize s e.1 := by
    intro e he
    rw [(tokens_iff _ _ _).mp hts]
    have h1 := hhi e he
    have h2 := hhi (l, i) (by simp)
    exact tokenize_same (by
      have a1 : RE_BUG_LANGUAGES.elem e.1 = false := by
        cases hq : RE_BUG_LANGUAGES.elem e.1 with
        | false => rfl
        | true => exact absurd (by simpa [RE_BUG_LANGUAGES] using List.elem_iff.mp hq) h1
      have a2 : RE_BUG_LANGUAGES.elem l = false := by
        cases hq : RE_BUG_LANGUAGES.elem l with
        | false => rfl
        | true => exact absurd (by simpa [RE_BUG_LANGUAGES] using List.elem_iff.mp hq) h2
      rw [a1, a2]) s
  let q : PyStr × Info → PyStr → Bool := fun e t => (isNumberToken (norm t) (mkLangData e.2)).isSome || isSkipToken (norm t) (mkLangData e.2)
  have hsc : ∀ e ∈ before ++ (l, i) :: after, scoreIn s e = (ts.filter (q e)).length := by
    intro e he
    unfold scoreIn normalizeTokens
    rw [← htok e he, List.filter_map, List.length_map]
    rfl
  have hti := ht (l, i) (by simp)
  have mono : ∀ (xs : List PyStr) (u v : PyStr → Bool), (∀ t ∈ xs, u t = true → v t = true) →
      (xs.filter u).length ≤ (xs.filter v).length ∧ ((∃ t ∈ xs, v t = true ∧ u t = false) → (xs.filter u).length < (xs.filter v).length) := by
    intro xs u v hx
    induction xs with
    | nil => simp
    | cons t xs ih =>
      obtain ⟨i1, i2⟩ := ih (fun y hy => hx y (by simp [hy]))
      have h0 := hx t (by simp)
      cases hu : u t with
      | true =>
        rw [List.filter_cons_of_pos hu, List.filter_cons_of_pos (h0 hu)]
        refine ⟨by simpa using i1, ?_⟩
        rintro ⟨y, hy, hy1, hy2⟩
        rcases List.mem_cons.mp hy with rfl | hy
        · rw [hu] at hy2; cases hy2
        · have := i2 ⟨y, hy, hy1, hy2⟩; simpa using this
      | false =>
        rw [List.filter_cons_of_neg (by simp [hu])]
        cases hv : v t with
        | true =>
          rw [List.filter_cons_of_pos hv]
          simp only [List.length_cons]
          exact ⟨by omega, fun _ => by omega⟩
        | false =>
          rw [List.filter_cons_of_neg (by simp [hv])]
          refine ⟨i1, ?_⟩
          rintro ⟨y, hy, hy1, hy2⟩
          rcases List.mem_cons.mp hy with rfl | hy
          · rw [hv] at hy1; cases hy1
          · exact i2 ⟨y, hy, hy1, hy2⟩
  have hq : ∀ e ∈ before ++ (l, i) :: after, ∀ t ∈ ts, q e t = true → q (l, i) t = true := fun e he t htt hr =>
    (recognised_iff hti t).mp (h e he t htt ((recognised_iff (ht e he) t).mpr hr))
  apply detectedIn_of_scores ht
  refine Or.inl ⟨before, i, after, rfl, ?_, ?_, ?_⟩
  · rw [hsc _ (by simp)]
    obtain ⟨t, h1, h2⟩ := hsome
    exact List.length_pos_of_mem (List.mem_filter.mpr ⟨h1, (recognised_iff hti t).mp h2⟩)
  · intro e he
    rw [hsc (l, i) (by simp), hsc e (by simp [he])]
    refine (mono ts _ _ (hq e (by simp [he]))).2 ?_
    obtain ⟨t, h1, h2, h3⟩ := hmore e he
    refine ⟨t, h1, (recognised_iff hti t).mp h2, ?_⟩
    cases hv : q e t with
    | false => rfl
    | true => exact absurd ((recognised_iff (ht e (by simp [he])) t).mpr hv) h3
  · intro e he
    rw [hsc (l, i) (by simp), hsc e (by simp [he])]
    exact (mono ts _ _ (hq e (by simp [he]))).1

/-- **C96** A text of which no language recognises anything is returned as it is (without soft hyphens and without white space at the
ends) if English is one of the languages and its module has no word that is taken for an irregular ordinal (as "second"). -/
theorem c96_unknown (p : Package) (ht : ∀ e ∈ p, Tidy e.2) (i : Info) (he : Knows p u!"en" i)
    (hr : ∀ f, Listed i f → ∃ c, StandsForOf i (irregular f) c) (s : PyStr) (h : ∀ e ∈ p, ScoreIn e s 0) : parseIn p s none = .ok (strip (withoutSoftHyphens s)) := by
  have hd : DetectedIn p s u!"en" := Or.inr ⟨rfl, h⟩
  rw [(c82_detected p he.distinct (by intro e; have := he.mem; rw [e] at this; cases this) ht s _ hd).1, parseIn_with he.distinct he.mem]
  refine parseWith_plain he.tidy he.moderate _ s (fun t htt hn => ?_)
  have h0 := (scoreIn_iff he.tidy s 0).mp (h _ he.mem)
  have h1 : norm t ∈ (normalizeTokens (tokenize s u!"en")).filter
      (fun t => (isNumberToken t (mkLangData i)).isSome || isSkipToken t (mkLangData i)) := by
    refine List.mem_filter.mpr ⟨List.mem_map.mpr ⟨t, htt, rfl⟩, ?_⟩
    rcases hn with hn | ⟨k, v, _, c, _, hc⟩
    · obtain ⟨c, hc⟩ := hr _ hn
      rw [(numberTokenOf_iff (f := norm t) he.tidy).mpr hc]; rfl
    · rw [(numberTokenOf_iff (f := norm t) he.tidy).mpr hc]; rfl
  have := List.length_pos_of_mem h1
  unfold scoreIn at h0
  simp only at h0
  omega

/-- **C96** Without a language, `parse` works piece by piece as with one (C92), if the same language is detected for both pieces. -/
theorem c96_pieces (p : Package) (ht : ∀ e ∈ p, Tidy e.2) (l : PyStr) (i : Info) (h : Knows p l i) (a g b : PyStr) (hda : DetectedIn p a l)
    (hdb : DetectedIn p b l) (ts : List PyStr) (hta : Tokens l a ts) (hc : EndsClosedOf i ts) (ha : SolidEnd a) (hg : WhiteSpace g)
    (hb : SolidStart b) (x y : PyStr) (hx : parseIn p a none = .ok x) (hy : parseIn p b none = .ok y) :
    parseIn p (a ++ g ++ b) none = .ok (x ++ g ++ y) := by
  have hne : p ≠ [] := by intro e; have := h.mem; rw [e] at this; cases this
  rw [(c82_detected p h.distinct hne ht _ l (c96_join p h.distinct ht a g b l hg hda hdb)).1]
  rw [(c82_detected p h.distinct hne ht _ l hda).1] at hx
  rw [(c82_detected p h.distinct hne ht _ l hdb).1] at hy
  exact c92_pieces p l i h a g b ts hta hc ha hg hb x y hx hy

/-! ## Which data modules -/

theorem recognised_all {i : Info} (hi : Tidy i) (h : (allForms i).all (fun f => (isNumberToken f (mkLangData i)).isSome) = true) :
    ∀ f, Listed i f → ∃ c, StandsForOf i (irregular f) c := by
  intro f hf
  obtain ⟨c, hc⟩ := Option.isSome_iff_exists.mp (List.all_eq_true.mp h f (listed_forms.mp hf))
  exact ⟨c, (numberTokenOf_iff hi).mp hc⟩

/-- **C96** Every word of the languages of the repository is recognised, ... -/
theorem c96_supported : ∀ l ∈ supported, ∀ f, Listed (file l) f → ∃ c, StandsForOf (file l) (irregular f) c := by
  have key : supported.all (fun l => (allForms (file l)).all (fun f => (isNumberToken f (mkLangData (file l))).isSome)) = true := by decide +kernel
  intro l hl
  exact recognised_all (c81_supported l hl).1 (List.all_eq_true.mp key l hl)

/-! ## Examples -/

theorem detected_by {p : Package} (hp : Distinct p) (hne : p ≠ []) (ht : ∀ e ∈ p, Tidy e.2) {s l : PyStr}
    (h : validTokensByLanguageIn p s = .ok l) : DetectedIn p s l := by
  obtain ⟨l', h1, h2⟩ := detectedIn_model hp hne ht s
  rw [h] at h1
  injection h1 with h1
  rw [h1]; exact h2

theorem withPortuguese_knows : Knows withPortuguese u!"pt" portuguese :=
  ⟨withPortuguese_distinct, List.mem_append_right _ (List.mem_singleton.mpr rfl), tidy_portuguese.1, tidy_portuguese.2⟩

theorem withPortuguese_ne : withPortuguese ≠ [] := by intro e; have := withPortuguese_knows.mem; rw [e] at this; cases this

theorem pt_books : DetectedIn withPortuguese u!"dois livros" u!"pt" ∧ parseIn withPortuguese u!"dois livros" none = .ok u!"2 livros" :=
  ⟨detected_by withPortuguese_distinct withPortuguese_ne withPortuguese_tidy (by decide +kernel), by decide +kernel⟩

theorem pt_dogs : DetectedIn withPortuguese u!"vinte três cães" u!"pt" ∧ parseIn withPortuguese u!"vinte três cães" none = .ok u!"23 cães" :=
  ⟨detected_by withPortuguese_distinct withPortuguese_ne withPortuguese_tidy (by decide +kernel), by decide +kernel⟩

/-- Two Portuguese texts, and the two together -/
theorem c96_example : DetectedIn withPortuguese u!"dois livros \t vinte três cães" u!"pt" ∧
    parseIn withPortuguese u!"dois livros \t vinte três cães" none = .ok u!"2 livros \t 23 cães" :=
  have hg : WhiteSpace u!" \t " := ⟨by simp, by decide⟩
  ⟨c96_join withPortuguese withPortuguese_distinct withPortuguese_tidy u!"dois livros" u!" \t " u!"vinte três cães" u!"pt" hg pt_books.1 pt_dogs.1,
    c96_pieces withPortuguese withPortuguese_tidy u!"pt" portuguese withPortuguese_knows u!"dois livros" u!" \t " u!"vinte três cães" pt_books.1 pt_dogs.1
    [u!"dois", u!" ", u!"livros"] ((tokens_iff _ _ _).mpr (by decide +kernel))
    (Or.inr ⟨[u!"dois", u!" "], u!"livros", [], rfl, Or.inl (ordinary_portuguese _ (by simp)), by simp⟩)
    ⟨u!"dois livro", 115, by decide +kernel, by decide⟩ hg
    ⟨118, u!"inte três cães", by decide +kernel, by decide⟩ u!"2 livros" u!"23 cães" pt_books.2 pt_dogs.2⟩

/-- A text no language recognises anything of -/
example : parseIn withPortuguese u!" gatos e cães" none = .ok u!"gatos e cães" := by
  have := c96_unknown withPortuguese withPortuguese_tidy (file u!"en")
    ⟨withPortuguese_distinct, List.mem_append_left _ (repository_mem (by decide)), (c81_supported u!"en" (by decide)).1, (c81_supported u!"en" (by decide)).2⟩
    (c96_supported u!"en" (by decide)) u!" gatos e cães" (fun e he => (scoreIn_iff (withPortuguese_tidy e he) _ _).mpr (by
      revert he; revert e; decide +kernel))
  rw [this]
  decide +kernel

/-- A text only one language recognises something of -/
example : parseNumberIn withPortuguese u!"vinte dois" none = parseNumberIn withPortuguese u!"vinte dois" (some u!"pt") := by
  have hm : (u!"pt", portuguese) ∈ withPortuguese := by unfold withPortuguese; simp
  refine (c96_single withPortuguese withPortuguese_distinct withPortuguese_tidy u!"vinte dois" u!"pt" portuguese hm ?_ ?_).2.2.1
  · rw [scoreIn_iff tidy_portuguese.1]; decide +kernel
  · intro e he hne
    rw [scoreIn_iff (withPortuguese_tidy e he)]
    revert hne; revert he; revert e; decide +kernel

/-- Portuguese recognises every word Spanish recognises here, and one more. -/
example : DetectedIn [(u!"es", file u!"es"), (u!"pt", portuguese)] u!"dois mil" u!"pt" := by
  have hes := (c81_supported u!"es" (by decide)).1
  have ht : ∀ e ∈ [(u!"es", file u!"es")] ++ (u!"pt", portuguese) :: [], Tidy e.2 := by
    simp only [List.cons_append, List.nil_append, List.forall_mem_cons, List.not_mem_nil, false_implies, implies_true, and_true]
    exact ⟨hes, tidy_portuguese.1⟩
  have h1 : ∀ t ∈ [u!"dois", u!"mil"], RecognisedOf portuguese t := fun t ht => (recognised_iff tidy_portuguese.1 t).mpr (by
    revert ht; revert t; decide +kernel)
  have h2 : ∀ e ∈ [(u!"es", file u!"es"), (u!"pt", portuguese)], ¬ RecognisedOf e.2 u!" " := by
    intro e he hr
    have := (recognised_iff (ht e he) _).mp hr
    have key : ∀ e ∈ [(u!"es", file u!"es"), (u!"pt", portuguese)],
        ((isNumberToken (norm u!" ") (mkLangData e.2)).isSome || isSkipToken (norm u!" ") (mkLangData e.2)) = false := by decide +kernel
    rw [key e he] at this; cases this
  refine c96_covers [(u!"es", file u!"es")] [] u!"pt" portuguese ht ?_ u!"dois mil" [u!"dois", u!" ", u!"mil"]
    ((tokens_iff _ _ _).mpr (by decide +kernel)) ?_ ⟨u!"dois", by simp, h1 _ (by simp)⟩ ?_
  · simp only [List.cons_append, List.nil_append, List.forall_mem_cons, List.not_mem_nil, false_implies, implies_true, and_true]
    decide
  · intro e he t htt hr
    simp only [List.mem_cons, List.not_mem_nil, or_false] at htt
    rcases htt with rfl | rfl | rfl
    · exact h1 _ (by simp)
    · exact absurd hr (h2 e he)
    · exact h1 _ (by simp)
  · intro e he
    rw [List.mem_singleton] at he
    subst he
    refine ⟨u!"dois", by simp, h1 _ (by simp), fun hr => ?_⟩
    have := (recognised_iff hes _).mp hr
    revert this; decide +kernel

end NumberParser.Props
