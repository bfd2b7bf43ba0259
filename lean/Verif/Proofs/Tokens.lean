import Verif.Proofs.Words

/-! The tokeniser produces the tokens of the specification, and there is only one way to split a text. -/

set_option linter.unusedSimpArgs false

namespace NumberParser
open Spec

theorem splitNonWord_tokens (s : PyStr) : WordTokens (splitNonWord s) := by
  induction s with
  | nil => exact WordTokens.last (by simp)
  | cons c cs ih =>
    simp only [splitNonWord]
    split
    · rename_i hc
      split
      · rename_i h; exact absurd h (splitNonWord_ne_nil cs)
      · rename_i t ts h
        rw [h] at ih
        have hx : ∀ t : PyStr, (∀ d ∈ t, isWord d = true) → ∀ d ∈ c :: t, isWord d = true := by
          intro t ht d hd
          rcases List.mem_cons.mp hd with rfl | hd
          · exact hc
          · exact ht d hd
        cases ih with
        | last hw => exact WordTokens.last (hx _ hw)
        | cons hw hg ht => exact WordTokens.cons (hx _ hw) hg ht
    · rename_i hc
      exact WordTokens.cons (by simp) (by simpa using hc) ih

theorem splitNonWord_unique {ts : List PyStr} (h : WordTokens ts) : splitNonWord ts.flatten = ts := by
  induction h with
  | last hw => simp [splitNonWord_word _ (List.all_eq_true.mpr hw)]
  | cons hw hc _ ih =>
    simp only [List.flatten_cons, List.singleton_append]
    rw [splitNonWord_word_sep _ _ _ (List.all_eq_true.mpr hw) hc, ih]

theorem splitSpaces_tokens (s : PyStr) : SpaceTokens (splitSpaces s) := by
  induction s with
  | nil => exact SpaceTokens.last (by simp)
  | cons c cs ih =>
    simp only [splitSpaces]
    split
    · rename_i hc
      have h1 : ∀ d ∈ [c], isSpace d = true := by simpa using hc
      cases cs with
      | nil => exact SpaceTokens.cons (by simp) (by simp) h1 (fun _ => rfl) ih
      | cons d ds =>
        by_cases hd : isSpace d = true
        · cases hs : splitSpaces (d :: ds) with
          | nil => exact absurd hs (splitSpaces_ne_nil _)
          | cons t ts =>
            rw [hs] at ih
            cases ih with
            | last hw =>
              cases t with
              | nil => exact SpaceTokens.cons (by simp) (by simp) h1 (fun _ => rfl) (SpaceTokens.last hw)
              | cons a as => exact SpaceTokens.cons (by simp) (by simp) h1 (fun _ => rfl) (SpaceTokens.last hw)
            | @cons _ g w' ts hw hne hg he ht =>
              cases t with
              | nil =>
                simp only [hd, if_true]
                refine SpaceTokens.cons (by simp) (by simp) ?_ he ht
                intro x hx
                rcases List.mem_cons.mp hx with rfl | hx
                · exact hc
                · exact hg x hx
              | cons a as =>
                exact SpaceTokens.cons (by simp) (by simp) h1 (by simp) (SpaceTokens.cons hw hne hg he ht)
        · cases hs : splitSpaces ds with
          | nil => exact absurd hs (splitSpaces_ne_nil ds)
          | cons t ts =>
            have h2 : splitSpaces (d :: ds) = (d :: t) :: ts := by
              simp only [splitSpaces, hd, Bool.false_eq_true, if_false, hs]
            rw [h2] at ih ⊢
            exact SpaceTokens.cons (by simp) (by simp) h1 (by simp) ih
    · rename_i hc
      split
      · rename_i h; exact absurd h (splitSpaces_ne_nil cs)
      · rename_i t ts h
        rw [h] at ih
        have hx : ∀ t : PyStr, (∀ d ∈ t, isSpace d = false) → ∀ d ∈ c :: t, isSpace d = false := by
          intro t ht d hd
          rcases List.mem_cons.mp hd with rfl | hd
          · simpa using hc
          · exact ht d hd
        cases ih with
        | last hw => exact SpaceTokens.last (hx _ hw)
        | cons hw hne hg he ht => exact SpaceTokens.cons (hx _ hw) hne hg he ht

theorem splitSpaces_word (w x : PyStr) (hw : ∀ c ∈ w, isSpace c = false) (h : PyStr) (t : List PyStr)
    (hx : splitSpaces x = h :: t) : splitSpaces (w ++ x) = (w ++ h) :: t := by
  induction w with
  | nil => exact hx
  | cons c cs ih =>
    have hc := hw c List.mem_cons_self
    have := ih (fun d hd => hw d (List.mem_cons_of_mem _ hd))
    simp only [List.cons_append, splitSpaces, hc, Bool.false_eq_true, if_false, this]

theorem splitSpaces_run (g x : PyStr) (hne : g ≠ []) (hg : ∀ c ∈ g, isSpace c = true)
    (hx : ∀ d ds, x = d :: ds → isSpace d = false) : splitSpaces (g ++ x) = [] :: g :: splitSpaces x := by
  induction g with
  | nil => exact absurd rfl hne
  | cons c cs ih =>
    have hc := hg c List.mem_cons_self
    cases cs with
    | nil =>
      simp only [List.cons_append, List.nil_append, splitSpaces, hc, if_true]
      cases x with
      | nil => rfl
      | cons d ds =>
        have hd := hx d ds rfl
        simp only [splitSpaces, hd, Bool.false_eq_true, if_false]
        cases hs : splitSpaces ds with
        | nil => rfl
        | cons t ts => rfl
    | cons d ds =>
      have := ih (by simp) (fun e he => hg e (List.mem_cons_of_mem _ he))
      have hd := hg d (by simp)
      have e : d :: ds ++ x = d :: (ds ++ x) := rfl
      rw [e] at this
      show splitSpaces (c :: d :: (ds ++ x)) = _
      conv => lhs; unfold splitSpaces
      rw [if_pos hc, this]
      show (if isSpace d = true then _ else _) = _
      rw [if_pos hd]

theorem splitSpaces_unique {ts : List PyStr} (h : SpaceTokens ts) : splitSpaces ts.flatten = ts := by
  induction h with
  | @last w hw =>
    have := splitSpaces_word w [] hw [] [] rfl
    simpa using this
  | @cons w g w' ts hw hne hg he ht ih =>
    have hx : ∀ d ds, (w' :: ts).flatten = d :: ds → isSpace d = false := by
      intro d ds hd
      cases w' with
      | nil => rw [he rfl] at hd; simp at hd
      | cons a as =>
        simp only [List.flatten_cons, List.cons_append, List.cons.injEq] at hd
        rw [← hd.1]
        cases ht with
        | last hw => exact hw a List.mem_cons_self
        | cons hw => exact hw a List.mem_cons_self
    have h2 := splitSpaces_run g _ hne hg hx
    rw [ih] at h2
    have h3 := splitSpaces_word w _ hw _ _ h2
    simp only [List.append_nil] at h3
    rw [List.flatten_cons, List.flatten_cons]
    exact h3

theorem re_bug (l : PyStr) : RE_BUG_LANGUAGES.elem l = true ↔ l = u!"hi" := by
  rw [List.elem_iff]; simp [RE_BUG_LANGUAGES]

theorem tokens_iff (l s : PyStr) (ts : List PyStr) : Tokens l s ts ↔ ts = tokenize s l := by
  rw [tokenize_eq]
  unfold Tokens split
  by_cases hl : l = u!"hi"
  · rw [if_pos hl, if_pos ((re_bug l).mpr hl)]
    constructor
    · rintro ⟨h1, h2⟩
      rw [← splitSpaces_unique h2, h1]; rfl
    · rintro rfl
      exact ⟨splitSpaces_flatten _, splitSpaces_tokens _⟩
  · rw [if_neg hl, if_neg (fun h => hl ((re_bug l).mp h))]
    constructor
    · rintro ⟨h1, h2⟩
      rw [← splitNonWord_unique h2, h1]; rfl
    · rintro rfl
      exact ⟨splitNonWord_flatten _, splitNonWord_tokens _⟩

theorem tokens_tokenize (l s : PyStr) : Tokens l s (tokenize s l) := (tokens_iff l s _).mpr rfl

end NumberParser
