import Verif.Proofs.Closed

/-! Conversion of a text that ends with a number word, and another text (C58). -/

set_option linter.unusedSimpArgs false

namespace NumberParser
open Spec

set_option maxRecDepth 100000

theorem endsNumber_tail {l : PyStr} {pre ts : List PyStr} {t : PyStr} (h : EndsNumber l (pre ++ t :: ts)) (ht : ¬ Cardinal l t)
    (hp : pre = [] ∨ ¬ BlankForm t) : EndsNumber l ts := by
  obtain ⟨a, u, bl, e, hu, hb⟩ := h
  rcases List.append_eq_append_iff.mp e with ⟨z, e1, e2⟩ | ⟨z, e1, e2⟩
  · cases z with
    | nil => injection e2 with e2 e3; subst e2; exact absurd hu ht
    | cons d z =>
      injection e2 with e2 e3
      exact ⟨z, u, bl, e3, hu, hb⟩
  · cases z with
    | nil => injection e2 with e2 e3; subst e2; exact absurd hu ht
    | cons d z =>
      injection e2 with e2 e3
      rcases hp with rfl | hp
      · simp at e1
      · exact absurd (hb t (by rw [e3]; simp)) hp

theorem runTokens_split {l : PyStr} {a b : List PyStr} {is : List RunItem} (h : RunTokens l (a ++ b) is) :
    ∃ x y, RunTokens l a x ∧ RunTokens l b y ∧ is = x ++ y := by
  induction a generalizing is with
  | nil => exact ⟨[], is, .nil, h, rfl⟩
  | cons t a ih =>
    cases h with
    | word hw h => obtain ⟨x, y, h1, h2, rfl⟩ := ih h; exact ⟨_, y, .word hw h1, h2, rfl⟩
    | conj hw h => obtain ⟨x, y, h1, h2, rfl⟩ := ih h; exact ⟨_, y, .conj hw h1, h2, rfl⟩
    | blank hw h => obtain ⟨x, y, h1, h2, rfl⟩ := ih h; exact ⟨_, y, .blank hw h1, h2, rfl⟩

theorem cardinal_not_skip {l : PyStr} (hl : l ∈ supported) {t : PyStr} (h : Cardinal l t) : ¬ Skip l t := by
  intro hs
  rw [skip_iff, key_skip (languageData_wf (supported_data hl)) ((cardinal_iff hl t).mp h)] at hs
  cases hs

theorem blanks_items {l : PyStr} (hl : l ∈ supported) {bl : List PyStr} {is : List RunItem} (hb : ∀ x ∈ bl, BlankForm x) (h : RunTokens l bl is) :
    is = [] := by
  induction h with
  | nil => rfl
  | word hw _ _ => exact absurd (hb _ (by simp)) (cardinal_not_blank hl ⟨_, _, hw⟩)
  | @conj t ts is hw _ _ =>
    exfalso
    have := hb t (by simp)
    rw [blankForm_iff] at this
    rw [skip_iff, (blank_not_number (supported_data hl) this).2] at hw
    cases hw
  | blank _ _ ih => exact ih (fun x hx => hb x (List.mem_cons_of_mem _ hx))

theorem run_endsNumber {l : PyStr} (hl : l ∈ supported) {ts : List PyStr} {is : List RunItem} (h : RunTokens l ts is) (he : EndsNumber l ts) :
    ∃ is' k v, is = is' ++ [.word k v] := by
  obtain ⟨a, t, bl, rfl, hc, hb⟩ := he
  obtain ⟨x, y, _, h2, rfl⟩ := runTokens_split h
  cases h2 with
  | word hw h2 => rw [blanks_items hl hb h2]; exact ⟨x, _, _, rfl⟩
  | conj hw h2 => exact absurd hw (cardinal_not_skip hl hc)
  | blank hw h2 => exact absurd hw (cardinal_not_blank hl hc)

theorem withSpaces_snoc (xs : List PyStr) (x : PyStr) : withSpaces (xs ++ [x]) = spaced (xs ++ [x]) ++ u!" " := by
  induction xs with
  | nil => simp [withSpaces, spaced]
  | cons y xs ih =>
    cases xs with
    | nil => simp [withSpaces, spaced]
    | cons z xs =>
      rw [List.cons_append, withSpaces, ih, List.cons_append, spaced]
      simp

theorem mark_not_blank {t : PyStr} (h : Mark t) : ¬ BlankForm t := by
  intro hb
  rcases h with h | h
  · have := hb 0x2e (by rw [h]; simp); revert this; decide
  · have := hb 0x2c (by rw [h]; simp); revert this; decide

theorem mark_not_cardinal {l : PyStr} (hl : l ∈ supported) {t : PyStr} (h : Mark t) : ¬ Cardinal l t := by
  rw [cardinal_iff hl]
  intro hc
  have := (key_sep (languageData_wf (supported_data hl)) hc)
  rw [mark_elem] at h
  simp_all

/-- The conversion of a text that ends with a number word, blank tokens and an ordinary word. -/
theorem converted_open {l : PyStr} (hl : l ∈ supported) {a mid ts : List PyStr} {x u out : PyStr} (ha : Converted l a x) (he : EndsNumber l a)
    (hm : ∀ t ∈ mid, BlankForm t) (hne : mid ≠ [] ∨ ¬ Mark u) (hu : Ordinary l u) (ho : Converted l ts out) :
    Converted l (a ++ mid ++ u :: ts) (x ++ (u ++ out)) ∧ ∃ z, x = z ++ u!" " ∧ EndsNS z := by
  have snoc : ∀ {w p out : PyStr}, (∃ z, out = z ++ u!" " ∧ EndsNS z) → ∃ z, w ++ p ++ out = z ++ u!" " ∧ EndsNS z := by
    rintro w p out ⟨z, rfl, hz⟩
    exact ⟨w ++ p ++ z, by simp, endsNS_append hz⟩
  induction ha with
  | nil => obtain ⟨a, t, bl, e, _⟩ := he; simp at e
  | @keep t ts' out' hk _ ih =>
    have hnc : ¬ Cardinal l t := by
      intro hc
      rcases hk with h | h | h | h
      · exact cardinal_not_blank hl hc h
      · exact mark_not_cardinal hl h hc
      · exact cardinal_not_skip hl hc h
      · exact (closing_facts hl (Or.inl h)).1 hc
    obtain ⟨h1, z, rfl, hz⟩ := ih (endsNumber_tail (pre := []) he hnc (Or.inl rfl))
    refine ⟨?_, t ++ z, by simp, endsNS_append hz⟩
    rw [List.append_assoc t]
    exact .keep hk h1
  | @ending run is xs hrun hcut =>
    have hb : ∀ {b : List PyStr}, (∀ t ∈ b, BlankForm t) → RunTokens l b [] := by
      intro b hb
      induction b with
      | nil => exact .nil
      | cons t b ih => exact .blank (hb t (by simp)) (ih (fun x hx => hb x (List.mem_cons_of_mem _ hx)))
    have hrun' : Run l (run ++ mid) is := by
      obtain ⟨h1, t, ts', e, hc⟩ := hrun
      refine ⟨by simpa using runTokens_append h1 (hb hm), t, ts' ++ mid, by rw [e]; rfl, hc⟩
    have hlast := run_endsNumber hl hrun.1 he
    refine ⟨?_, ?_⟩
    · rw [← List.append_assoc]
      by_cases hmk : Mark u
      · refine .mark hrun' hcut hmk ?_ ho
        rcases List.eq_nil_or_concat mid with e | ⟨m, t, rfl⟩
        · rcases hne with h | h
          · exact absurd e h
          · exact absurd hmk h
        · exact ⟨run ++ m, t, by simp, hm t (by simp)⟩
      · exact .word hrun' hlast hcut hu hmk ho
    · obtain ⟨ys, n, rfl⟩ := cut_last hcut
      exact ⟨_, withSpaces_snoc _ _, endsNS_spaced (digits_endsNS n)⟩
  | @mark run is xs t ts' out' hrun hcut hmk hbl _ ih =>
    obtain ⟨h1, hz⟩ := ih (endsNumber_tail he (mark_not_cardinal hl hmk) (Or.inr (mark_not_blank hmk)))
    refine ⟨?_, snoc hz⟩
    have := Converted.mark hrun hcut hmk hbl h1
    simpa using this
  | @markTight run is xs t ts' out' hrun hcut hmk hbl _ ih =>
    obtain ⟨h1, hz⟩ := ih (endsNumber_tail he (mark_not_cardinal hl hmk) (Or.inr (mark_not_blank hmk)))
    refine ⟨?_, snoc hz⟩
    have := Converted.markTight hrun hcut hmk hbl h1
    simpa using this
  | @word run is xs t ts' out' hrun hlast hcut hord hmk _ ih =>
    have hc := closing_facts hl (Or.inl hord)
    obtain ⟨h1, hz⟩ := ih (endsNumber_tail he hc.1 (Or.inr hc.2.2))
    refine ⟨?_, snoc hz⟩
    have := Converted.word hrun hlast hcut hord hmk h1
    simpa using this
  | @conjWord run is f xs t ts' out' hrun hcut hord hmk _ ih =>
    have hc := closing_facts hl (Or.inl hord)
    obtain ⟨h1, hz⟩ := ih (endsNumber_tail he hc.1 (Or.inr hc.2.2))
    refine ⟨?_, snoc hz⟩
    have := Converted.conjWord hrun hcut hord hmk h1
    simpa using this
  | @ordinal run is xs t k v ts' out' hrun hord hcut _ ih =>
    have hc := closing_facts hl (Or.inr ⟨k, v, hord⟩)
    obtain ⟨h1, hz⟩ := ih (endsNumber_tail he hc.1 (Or.inr hc.2.2))
    refine ⟨?_, ?_⟩
    · have := Converted.ordinal hrun hord hcut h1
      simpa using this
    · have := snoc (w := spaced xs) (p := []) hz
      simpa using this

/-- `parse` of a text that ends with a number word, a gap of white space and a text that begins with an ordinary word. -/
theorem parse_open {l : PyStr} (hl : l ∈ supported) {a g b x y : PyStr} {ta tb : List PyStr} (ha : Tokens l a ta) (he : EndsNumber l ta)
    (hg : ∀ c ∈ g, isSpace c = true) (hne : g ≠ []) (hb : Tokens l b tb) (hbo : BeginsOrdinary l tb)
    (hae : EndsNS (withoutSoftHyphens a)) (hbs : StartsNS (withoutSoftHyphens b))
    (hx : parse a (some l) = .ok x) (hy : parse b (some l) = .ok y) : parse (a ++ g ++ b) (some l) = .ok (x ++ u!" " ++ y) := by
  have hd := supported_data hl
  obtain ⟨mid, hm, hmf, hms⟩ := tokens_gap ha hb hg hne hae hbs
  obtain ⟨e, u, ts, rfl, hempty, hu⟩ := hbo
  obtain ⟨ra, hra⟩ := converted_exists hl ta
  obtain ⟨out, hout⟩ := converted_exists hl ts
  have hblank : ∀ t ∈ mid ++ e, BlankForm t := by
    intro t ht
    rcases List.mem_append.mp ht with ht | ht
    · rw [blankForm_iff]; exact blank_norm ((blank_spec t).mpr (hms t ht))
    · rw [hempty t ht]; exact blankForm_nil
  have hmne : mid ++ e ≠ [] := by
    intro h
    have : mid = [] := (List.append_eq_nil_iff.mp h).1
    rw [this] at hmf
    exact hne hmf.symm
  obtain ⟨hr, z, rfl, hz⟩ := converted_open hl hra he hblank (Or.inl hmne) hu hout
  have hrb : Converted l (e ++ u :: ts) (u ++ out) := by
    have h1 : Converted l (u :: ts) (u ++ out) := .keep (Or.inr (Or.inr (Or.inr hu))) hout
    have h2 := keep_blanks (mid := e) (by intro t ht; rw [hempty t ht]; simp) h1
    have : e.flatten = [] := List.flatten_eq_nil_iff.mpr hempty
    rwa [this] at h2
  rw [show ta ++ (mid ++ e) ++ u :: ts = ta ++ mid ++ (e ++ u :: ts) by simp] at hr
  rw [parse_eq hd, ← (tokens_iff l a ta).mp ha, converted_pieces hl hra] at hx
  rw [parse_eq hd, ← (tokens_iff l b _).mp hb, converted_pieces hl hrb] at hy
  rw [parse_eq hd, ← (tokens_iff l _ _).mp hm, converted_pieces hl hr]
  injection hx with hx
  injection hy with hy
  rw [← hx, ← hy]
  congr 1
  have hsb : StartsNS (u ++ out) := by
    rw [← converted_pieces hl hrb]
    apply pieces_startsNS (languageData_wf hd)
    rw [hb.1]; exact hbs
  have hun : u ++ out ≠ [] := by
    intro h
    have : u = [] := (List.append_eq_nil_iff.mp h).1
    obtain ⟨⟨c, h', _⟩, _⟩ := hu
    rw [this] at h'; cases h'
  rw [strip_gap hz hsb hun]
  have : strip (z ++ u!" ") = strip z := by
    unfold strip
    rw [(dropWhile_endsNS hz u!" ").1]
    unfold rdropWhile
    simp
    rw [List.dropWhile_cons_of_pos (by decide)]
  rw [this]

end NumberParser
