import Verif.Proofs.Concat

/-! Adjacent unit and teen words (C38). -/

set_option linter.unusedSimpArgs false

namespace NumberParser
open Spec

theorem styleOK {L : Lang} (h : L ∈ languages) : StyleOK L.style L.code (mkLangData (file L.code)) ∧ L.code ∈ supported := by
  simp only [languages, List.mem_cons, List.not_mem_nil, or_false] at h
  rcases h with rfl | rfl | rfl | rfl | rfl
  · exact ⟨style_en, by decide⟩
  · exact ⟨style_es, by decide⟩
  · exact ⟨style_hi, by decide⟩
  · exact ⟨style_ru, by decide⟩
  · exact ⟨style_uk, by decide⟩

theorem sol_spaces (l : PyStr) {g : PyStr} (hg : ∀ c ∈ g, isSpace c = true) (b : PyStr) : sol l (g ++ b) = sol l b := by
  induction g with
  | nil => rfl
  | cons c g ih =>
    have := sol_append_space l [] (g ++ b) (hg c List.mem_cons_self)
    simp only [List.nil_append, sol_nil] at this
    rw [List.cons_append, this]
    exact ih (fun c hc => hg c (List.mem_cons_of_mem _ hc))

theorem sol_append_gap (l a b : PyStr) {g : PyStr} (hne : g ≠ []) (hg : ∀ c ∈ g, isSpace c = true) :
    sol l (a ++ g ++ b) = sol l a ++ sol l b := by
  cases g with
  | nil => exact absurd rfl hne
  | cons c g =>
    have : a ++ c :: g ++ b = a ++ c :: (g ++ b) := by simp
    rw [this, sol_append_space l a _ (hg c List.mem_cons_self), sol_spaces l (fun c hc => hg c (List.mem_cons_of_mem _ hc))]

theorem separated_sol {l : PyStr} {ws : List PyStr} {t : PyStr} (h : Separated ws t)
    (hw : ∀ w ∈ ws, (∀ c ∈ w, sepChar l c = false) ∧ blank w = false) : sol l t = ws := by
  induction h with
  | @one w => exact sol_word l (hw w (by simp)).1 (hw w (by simp)).2
  | @cons w g rest ws hne hg _ ih =>
    rw [sol_append_gap l w rest hne hg, ih (fun x hx => hw x (List.mem_cons_of_mem _ hx)),
      sol_word l (hw w (by simp)).1 (hw w (by simp)).2]
    rfl

theorem separated_hd {l : PyStr} {ws : List PyStr} {t : PyStr} (h : Separated ws t)
    (hw : ∀ w ∈ ws, (∀ c ∈ w, sepChar l c = false) ∧ blank w = false) : ∃ w ws', ws = w :: ws' ∧ hd l t = w := by
  cases h with
  | @one w => exact ⟨_, [], rfl, hd_word l (hw _ (by simp)).1⟩
  | @cons w g rest ws hne hg _ =>
    refine ⟨w, ws, rfl, ?_⟩
    rw [List.append_assoc]
    apply hd_prefix (hw w (by simp)).1
    intro c cs he
    cases g with
    | nil => exact absurd rfl hne
    | cons d g =>
      simp at he
      rw [← he.1]; exact sepChar_of_space l (hg d (by simp))

theorem separated_chars {ws : List PyStr} {t : PyStr} (h : Separated ws t) {p : Nat → Bool} (hs : ∀ c, isSpace c = true → p c = true)
    (hw : ∀ w ∈ ws, ∀ c ∈ w, p c = true) : ∀ c ∈ t, p c = true := by
  induction h with
  | @one w => exact hw w (by simp)
  | @cons w g rest ws hne hg _ ih =>
    intro c hc
    rcases List.mem_append.mp hc with hc | hc
    · rcases List.mem_append.mp hc with hc | hc
      · exact hw w (by simp) c hc
      · exact hs c (hg c hc)
    · exact ih (fun x hx => hw x (List.mem_cons_of_mem _ hx)) c hc

/-- A separated text of number words: what `parse` and `parse_number` see. -/
theorem separated_numbers {L : Lang} (hL : L ∈ languages) {ws : List PyStr} {t : PyStr} (h : Separated ws t)
    (hchars : ∀ w ∈ ws, ∀ c ∈ w, L.style.wordChar c = true)
    (hnum : ∀ w ∈ ws, (mkLangData (file L.code)).allNumbers.mem (norm w) = true) :
    let ld := mkLangData (file L.code)
    parse t (some L.code) = .ok (strip (nums ld (ws.map norm)).flatten) ∧
    parseNumber t (some L.code) = .ok (numberOfItems (buildItems ld (ws.map norm))) := by
  intro ld
  obtain ⟨hst, hsup⟩ := styleOK hL
  have hwf : ld.WF := languageData_wf hst.lang
  have hsep : ∀ w ∈ ws, (∀ c ∈ w, sepChar L.code c = false) ∧ blank w = false := by
    intro w hw
    have h1 : ∀ c ∈ w, sepChar L.code c = false := fun c hc => (hst.word c (hchars w hw c hc)).1
    refine ⟨h1, ?_⟩
    obtain ⟨c, hc, hc1, _⟩ := word_char hst.lang h1 (by unfold numOrSkip; rw [hnum w hw]; rfl)
    exact not_blank_of_mem hc hc1
  have hsol := separated_sol h hsep
  obtain ⟨w, ws', hws, hhd⟩ := separated_hd h hsep
  have hplain := separated_chars (p := plainChar) h (fun c hc => space_plain hc) (fun w hw c hc => (hst.word c (hchars w hw c hc)).2)
  have htok : tokenize t L.code = split L.code t := by rw [tokenize_eq, noShy_plain hplain]
  have hnbs : nbs (tokenize t L.code) = ws.map norm := by
    rw [htok, nbs_split, hsol, List.filter_eq_self]
    intro x hx
    obtain ⟨w, hw, rfl⟩ := List.mem_map.mp hx
    rw [key_blank hwf (hnum w hw)]; rfl
  have hall : ∀ x ∈ tokenize t L.code, tokOkB ld (norm x) = true := by
    intro x hx
    by_cases hb : blank (norm x) = true
    · unfold tokOkB; rw [hb]; simp
    · have : norm x ∈ nbs (tokenize t L.code) :=
        List.mem_filter.mpr ⟨List.mem_map.mpr ⟨x, hx, rfl⟩, by simpa using hb⟩
      rw [hnbs] at this
      obtain ⟨w, hw, e⟩ := List.mem_map.mp this
      unfold tokOkB; rw [← e, hnum w hw]; simp
  have hcons : tokenize t L.code = [] ++ w :: (tokenize t L.code).tail := by
    rw [htok, List.nil_append]
    conv => lhs; rw [split_cons, hhd]
  have hwn := hnum w (by rw [hws]; simp)
  refine ⟨?_, ?_⟩
  · have := parse_run hst.lang t [] _ w hcons (by simp) hwn (fun x hx => hall x (List.mem_of_mem_tail hx))
    rw [this, hnbs]; rfl
  · have hmem : w ∈ tokenize t L.code := by rw [hcons]; simp
    obtain ⟨c, hc, hc1, hc2⟩ := key_char hst.lang hmem hwn
    have hct := token_sub hmem c hc
    rw [parseNumber_words hst.lang (not_blank_of_mem hct hc1) (not_numeric_of_mem hct hc1 hc2), dropApos_plain hplain]
    unfold wordsNumber
    rw [if_pos, buildItems_filter hwf.toDisjoint]
    · have : (normalizeTokens (tokenize t L.code)).filter (fun t => !blank t) = ws.map norm := hnbs
      rw [this]
    · rw [hcons]
      show tokensOk ld 0 (norm w :: normalizeTokens _) = true
      rw [tokensOk_zero hwf, hwn]
      simp only [Bool.true_or, Bool.true_and]
      rw [List.all_eq_true]
      intro x hx
      obtain ⟨y, hy, rfl⟩ := List.mem_map.mp hx
      exact hall y (List.mem_of_mem_tail hy)

theorem nums_flatten_strip {ld : LangData} {ts : List PyStr} (hne : ts ≠ []) {vs : List Nat} (hi : buildItems ld ts = vs.map .num) :
    strip (nums ld ts).flatten = spaced (vs.map decDigits) := by
  have hvs : vs ≠ [] := by
    intro e; subst e
    obtain ⟨n, is, h⟩ := buildItems_head ld ts
    rw [h] at hi; cases hi
  have h1 : (nums ld ts).flatten = spaced (vs.map decDigits) ++ u!" " := by
    unfold nums
    rw [if_neg (by cases ts <;> simp_all), hi]
    clear hi
    induction vs with
    | nil => exact absurd rfl hvs
    | cons v vs ih =>
      by_cases h : vs = []
      · subst h; simp [spaced, renderPure]
      · have e : spaced ((v :: vs).map decDigits) = decDigits v ++ 32 :: spaced (vs.map decDigits) :=
          spaced_cons _ (by simpa using h)
        rw [e]
        simp only [List.map_cons, List.flatMap_cons, List.flatten_append]
        rw [ih h]
        simp [renderPure]
  rw [h1]
  have hs := spaced_solid (ts := vs.map decDigits) (by simpa using hvs) (by
    intro t ht
    obtain ⟨n, _, rfl⟩ := List.mem_map.mp ht
    obtain ⟨h1, h2⟩ := decDigits_solid n
    exact ⟨h1, fun c cs he => h2 c (by rw [he]; simp), fun c cs he => h2 c (by rw [he]; simp)⟩)
  refine strip_trail hs.1 hs.2 ?_ (by decide)
  cases vs with
  | nil => exact absurd rfl hvs
  | cons v vs =>
    cases vs with
    | nil => exact (decDigits_solid v).1
    | cons _ _ => rw [List.map_cons, spaced_cons _ (by simp)]; simp

theorem symOf_number {ld : LangData} (h : ld.WF) {t : PyStr} (ht : ld.allNumbers.mem t = true) : symOf ld t = some (.num (kindOf ld t)) := by
  unfold symOf
  rw [if_neg (by rw [key_blank h ht]; simp), if_neg]
  have := key_skip h ht
  unfold isSkipToken at this
  rw [this]; simp

theorem filterMap_symOf {ld : LangData} (h : ld.WF) {ts : List PyStr} (ht : ∀ t ∈ ts, ld.allNumbers.mem t = true) :
    ts.filterMap (symOf ld) = (ts.map (kindOf ld)).map .num := by
  induction ts with
  | nil => rfl
  | cons t ts ih =>
    rw [List.filterMap_cons, symOf_number h (ht t (by simp))]
    simp only [List.map_cons]
    rw [ih (fun x hx => ht x (List.mem_cons_of_mem _ hx))]

theorem small_separate {L : Lang} (hL : L ∈ languages) {ws : List PyStr} {vs : List Nat} {t : PyStr} (h : Separated ws t)
    (hchars : ∀ w ∈ ws, ∀ c ∈ w, L.style.wordChar c = true)
    (hk : ws.map (fun w => smallVal (kindOf (mkLangData (file L.code)) (norm w))) = vs.map some) :
    parse t (some L.code) = .ok (spaced (vs.map decDigits)) ∧
    (2 ≤ ws.length → parseNumber t (some L.code) = .ok none) := by
  obtain ⟨hst, hsup⟩ := styleOK hL
  have hwf := languageData_wf hst.lang
  have hnum : ∀ w ∈ ws, (mkLangData (file L.code)).allNumbers.mem (norm w) = true := by
    intro w hw
    apply mem_of_kind hwf
    intro e
    have : smallVal (kindOf (mkLangData (file L.code)) (norm w)) ∈ vs.map some := by
      rw [← hk]; exact List.mem_map.mpr ⟨w, hw, rfl⟩
    rw [e] at this
    obtain ⟨v, _, hv⟩ := List.mem_map.mp this
    cases hv
  obtain ⟨h1, h2⟩ := separated_numbers hL h hchars hnum
  have hwne : ws ≠ [] := by cases h <;> simp
  have hitems : buildItems (mkLangData (file L.code)) (ws.map norm) = vs.map .num := by
    rw [buildItems_eq hwf.toDisjoint, filterMap_symOf hwf (by
      intro x hx
      obtain ⟨w, hw, rfl⟩ := List.mem_map.mp hx
      exact hnum w hw)]
    refine small_items _ _ _ ?_ (by simpa using hwne)
    rw [List.map_map, List.map_map]; exact hk
  refine ⟨?_, ?_⟩
  · rw [h1, nums_flatten_strip (by simpa using hwne) hitems]
  · intro hlen
    rw [h2, hitems]
    have hl : vs.length = ws.length := by
      have := congrArg List.length hk; simpa using this.symm
    match vs, hl with
    | [], hl => simp at hl; omega
    | [_], hl => simp at hl; omega
    | _ :: _ :: _, _ => rfl

end NumberParser
