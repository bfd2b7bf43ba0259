import Verif.Proofs.OrdinalText
import Verif.Proofs.RoundTrip
import Verif.Spec.Ordinals

/-! English ordinals (C06). -/

set_option linter.unusedSimpArgs false

namespace NumberParser
open Spec

set_option maxRecDepth 100000

/-- A fragment of text whose non-blank tokens are the words `ws` with conjunctions among them. -/
structure WFrag (l : PyStr) (ld : LangData) (s : PyStr) (ws : List PyStr) : Prop where
  plain : ∀ c ∈ s, plainChar c = true
  words : ((sol l s).map norm).filter (fun t => !isSkipToken t ld) = ws.map norm

theorem WFrag.nil (l : PyStr) (ld : LangData) : WFrag l ld [] [] := ⟨by simp, by simp⟩

theorem WFrag.append_sep {l : PyStr} {ld : LangData} {a b : PyStr} {c : Nat} {ka kb kc : List PyStr}
    (ha : WFrag l ld a ka) (hc : sepChar l c = true) (hcf : WFrag l ld [c] kc) (hb : WFrag l ld b kb) :
    WFrag l ld (a ++ c :: b) (ka ++ (kc ++ kb)) where
  plain := by
    intro x hx
    rcases List.mem_append.mp hx with h | h
    · exact ha.plain x h
    · rcases List.mem_cons.mp h with rfl | h
      · exact hcf.plain x (by simp)
      · exact hb.plain x h
  words := by
    rw [sol_append_sep l a b hc]
    simp only [List.map_append, List.filter_append]
    rw [ha.words, hcf.words, hb.words]

theorem WFrag.space {l : PyStr} {ld : LangData} {c : Nat} (hc : isSpace c = true) : WFrag l ld [c] [] where
  plain := by intro x hx; simp at hx; rw [hx]; exact space_plain hc
  words := by rw [sol_space l hc]; simp

theorem WFrag.word {l : PyStr} {ld : LangData} {v : PyStr} (hv : ∀ c ∈ v, sepChar l c = false ∧ plainChar c = true)
    (hb : blank (norm v) = false) (hs : isSkipToken (norm v) ld = false) : WFrag l ld v [v] where
  plain := fun c hc => (hv c hc).2
  words := by
    have hb' : blank v = false := by
      cases h : blank v with
      | false => rfl
      | true => rw [blank_norm h] at hb; cases hb
    rw [sol_word l (fun c hc => (hv c hc).1) hb']
    simp [hs]

theorem WFrag.skip {l : PyStr} {ld : LangData} (hwf : ld.WF) {v : PyStr} (hv : ∀ c ∈ v, sepChar l c = false ∧ plainChar c = true)
    (hs : isSkipToken (norm v) ld = true) : WFrag l ld v [] where
  plain := fun c hc => (hv c hc).2
  words := by
    have hb' : blank v = false := by
      cases h : blank v with
      | false => rfl
      | true => have := skip_blank hwf hs; rw [blank_norm h] at this; cases this
    rw [sol_word l (fun c hc => (hv c hc).1) hb']
    simp [hs]

theorem WFrag.joiner {σ : Style} {l : PyStr} {ld : LangData} (h : StyleOK σ l ld) {c : Nat} (hc : σ.joiner c = true) :
    WFrag l ld [c] [] ∧ sepChar l c = true := by
  rcases h.joiner c hc with hs | ⟨h1, h2, h3, h4⟩
  · exact ⟨WFrag.space hs, sepChar_of_space l hs⟩
  · refine ⟨⟨by intro x hx; simp at hx; rw [hx]; exact h2, ?_⟩, h1⟩
    have : sol l [c] = [[c]] := by rw [sol_eq]; simp [hd_cons, stl_cons, h1, h3]
    rw [this]; simp [h4]

theorem WFrag.append_joiners {σ : Style} {l : PyStr} {ld : LangData} (h : StyleOK σ l ld) {a b g : PyStr}
    {ka kb : List PyStr} (ha : WFrag l ld a ka) (hg : g ≠ []) (hgc : ∀ c ∈ g, σ.joiner c = true) (hb : WFrag l ld b kb) :
    WFrag l ld (a ++ g ++ b) (ka ++ kb) := by
  induction g generalizing a ka with
  | nil => exact absurd rfl hg
  | cons c cs ih =>
    obtain ⟨hc1, hc2⟩ := WFrag.joiner h (hgc c List.mem_cons_self)
    cases cs with
    | nil =>
      have := WFrag.append_sep ha hc2 hc1 hb
      simpa using this
    | cons d ds =>
      have h1 := WFrag.append_sep ha hc2 hc1 (WFrag.nil l ld)
      have := ih (a := a ++ [c]) (ka := ka) (by simpa using h1) (by simp) (fun x hx => hgc x (List.mem_cons_of_mem _ hx))
      simpa using this

theorem WFrag.append_gap {σ : Style} {l : PyStr} {ld : LangData} (h : StyleOK σ l ld) {a b g : PyStr}
    {ka kb : List PyStr} (ha : WFrag l ld a ka) (hg : Gap σ g) (hb : WFrag l ld b kb) :
    WFrag l ld (a ++ g ++ b) (ka ++ kb) := by
  induction hg generalizing a ka with
  | sep hne hj => exact WFrag.append_joiners h ha hne hj hb
  | @filler g f v rest hne hj hf hw _ ih =>
    have hsk : isSkipToken (norm v) ld = true := by
      have := h.filler f hf
      have he : norm v = norm f := hw.2
      rw [he]; exact this
    have hv := WFrag.skip (languageData_wf h.lang) (l := l) (fun c hc => h.word c (hw.1 c hc)) hsk
    have h1 := WFrag.append_joiners h ha hne hj hv
    have := ih h1
    simpa using this

theorem WFrag.append_spaces {l : PyStr} {ld : LangData} {a g : PyStr} {ka : List PyStr} (ha : WFrag l ld a ka)
    (hg : ∀ c ∈ g, isSpace c = true) : WFrag l ld (a ++ g) ka := by
  induction g generalizing a ka with
  | nil => simpa using ha
  | cons c cs ih =>
    have hc := hg c List.mem_cons_self
    have h1 := WFrag.append_sep ha (sepChar_of_space l hc) (WFrag.space hc) (WFrag.nil l ld)
    have := ih (a := a ++ [c]) (ka := ka) (by simpa using h1) (fun x hx => hg x (List.mem_cons_of_mem _ hx))
    simpa using this

theorem WFrag.prepend_spaces {l : PyStr} {ld : LangData} {b g : PyStr} {kb : List PyStr} (hb : WFrag l ld b kb)
    (hg : ∀ c ∈ g, isSpace c = true) : WFrag l ld (g ++ b) kb := by
  induction g with
  | nil => simpa using hb
  | cons c cs ih =>
    have hc := hg c List.mem_cons_self
    have h1 := WFrag.append_sep (WFrag.nil l ld) (sepChar_of_space l hc) (WFrag.space hc)
      (ih (fun x hx => hg x (List.mem_cons_of_mem _ hx)))
    simpa using h1

theorem WFrag.congr {l : PyStr} {ld : LangData} {s : PyStr} {ws ws' : List PyStr} (h : WFrag l ld s ws) (he : ws.map norm = ws'.map norm) :
    WFrag l ld s ws' := ⟨h.plain, h.words.trans he⟩

/-- The tokens of a written-out text that are not conjunctions are its words. -/
theorem Text.wfrag {σ : Style} {l : PyStr} {ld : LangData} (h : StyleOK σ l ld) {ws : List PyStr} {text : PyStr}
    (ht : Text σ ws text) (hk : ∀ w ∈ ws, blank (norm w) = false ∧ isSkipToken (norm w) ld = false) : WFrag l ld text ws := by
  have hkey : ∀ {w v : PyStr}, Writes σ w v → blank (norm w) = false ∧ isSkipToken (norm w) ld = false → WFrag l ld v [w] := by
    intro w v hw hk
    have he : norm v = norm w := hw.2
    exact (WFrag.word (fun c hc => h.word c (hw.1 c hc)) (by rw [he]; exact hk.1) (by rw [he]; exact hk.2)).congr (by simp [he])
  induction ht with
  | last hw hs => exact WFrag.append_spaces (hkey hw (hk _ (by simp))) hs
  | @cons w v g rest ws hw hg _ ih =>
    exact WFrag.append_gap h (hkey hw (hk _ List.mem_cons_self)) hg (ih (fun x hx => hk x (List.mem_cons_of_mem _ hx)))

theorem kinds_filter {ld : LangData} (hw : ld.WF) (ts : List PyStr) : kinds ld ts = kinds ld (ts.filter (fun t => !isSkipToken t ld)) := by
  induction ts with
  | nil => rfl
  | cons t ts ih =>
    have h1 := kinds_append ld [t] ts
    rw [List.singleton_append] at h1
    rw [h1, List.filter_cons]
    cases hs : isSkipToken t ld with
    | true => rw [kinds_skip hw hs]; simpa using ih
    | false =>
      have h2 := kinds_append ld [t] (ts.filter (fun t => !isSkipToken t ld))
      rw [List.singleton_append] at h2
      simp only [Bool.not_false, if_true]
      rw [h2, ih]

/-- `parse_ordinal` of the written-out form of words that are converted to number words. -/
theorem parseOrdinal_rendering {σ : Style} {l : PyStr} (hl : l ∈ supported) (h : StyleOK σ l (mkLangData (file l)))
    {ws : List PyStr} {text : PyStr} (hr : Rendering σ ws text)
    (hk : ∀ w ∈ ws, blank (norm w) = false ∧ isSkipToken (norm w) (mkLangData (file l)) = false ∧
      (mkLangData (file l)).allNumbers.mem (applyCardinalConversion (norm w) (mkLangData (file l))) = true ∧
      noApos (applyCardinalConversion (norm w) (mkLangData (file l))) = true) :
    parseOrdinal text (some l) = .ok (kindsValue (mkLangData (file l)).maximumGroupValue
      (ws.map (fun w => kindOf (mkLangData (file l)) (applyCardinalConversion (norm w) (mkLangData (file l)))))) := by
  generalize hld : mkLangData (file l) = ld at *
  obtain ⟨lead, rest, hlead, ht, rfl⟩ := hr
  have hdat := supported_data hl
  rw [hld] at hdat
  have hwf := languageData_wf hdat
  have hf := WFrag.prepend_spaces (Text.wfrag h ht (fun w hw => ⟨(hk w hw).1, (hk w hw).2.1⟩)) hlead
  have hns := noShy_plain hf.plain
  -- every token is blank, a conjunction or one of the words
  have htok : ∀ f ∈ normalizeTokens (tokenize (lead ++ rest) l), blank f = true ∨ isSkipToken f ld = true ∨ ∃ w ∈ ws, f = norm w := by
    intro f hfm
    cases hb : blank f with
    | true => exact Or.inl rfl
    | false =>
      right
      cases hs : isSkipToken f ld with
      | true => exact Or.inl rfl
      | false =>
        right
        have : f ∈ ws.map norm := by
          rw [← hf.words, List.mem_filter]
          refine ⟨?_, by simp [hs]⟩
          have h1 : f ∈ solid l (lead ++ rest) := List.mem_filter.mpr ⟨hfm, by simp [hb]⟩
          rw [solid_eq, hns] at h1
          exact (List.mem_filter.mp h1).1
        obtain ⟨w, hw, rfl⟩ := List.mem_map.mp this
        exact ⟨w, hw, rfl⟩
  have hconv : ∀ f ∈ normalizeTokens (tokenize (lead ++ rest) l), blank (applyCardinalConversion f ld) = true ∨
      (numOrSkip ld (applyCardinalConversion f ld) = true ∧ noApos (applyCardinalConversion f ld) = true) := by
    intro f hfm
    rcases htok f hfm with hb | hs | ⟨w, hw, rfl⟩
    · left; rw [conv_blank _ hb]; exact hb
    · right
      obtain ⟨e1, _, e2⟩ := stable_skip hdat hs
      rw [e2]; exact ⟨by unfold numOrSkip; rw [hs]; simp, e1⟩
    · right
      obtain ⟨_, _, e1, e2⟩ := hk w hw
      exact ⟨by unfold numOrSkip; rw [e1]; rfl, e2⟩
  have hcons := tokens_cons l (lead ++ rest)
  obtain ⟨w0, v0, ws', hws, hw0, hhd, hmem⟩ := Text.head h ht
  have hfirst : isSkipToken (applyCardinalConversion (norm (hd l (noShy (lead ++ rest)))) ld) ld = false := by
    rw [hns]
    cases lead with
    | nil =>
      rw [List.nil_append, hhd, show norm v0 = norm w0 from hw0.2]
      exact key_skip hwf (hk w0 (by rw [hws]; simp)).2.2.1
    | cons d ds =>
      rw [List.cons_append, hd_cons, if_pos (sepChar_of_space l (hlead d List.mem_cons_self)), conv_blank _ (blank_norm (t := []) rfl)]
      cases hs : isSkipToken (norm []) ld with
      | false => rfl
      | true => have := skip_blank hwf hs; cases this
  have hmapc : (normalizeTokens (tokenize (lead ++ rest) l)).map (fun t => applyCardinalConversion t ld) =
      applyCardinalConversion (norm (hd l (noShy (lead ++ rest)))) ld ::
        (normalizeTokens (split l (noShy (lead ++ rest))).tail).map (fun t => applyCardinalConversion t ld) := by
    rw [hcons, List.map_cons]
  have hall : ∀ c ∈ (normalizeTokens (tokenize (lead ++ rest) l)).map (fun t => applyCardinalConversion t ld),
      blank c = true ∨ (numOrSkip ld c = true ∧ noApos c = true) := by
    intro c hc
    obtain ⟨f, hfm, rfl⟩ := List.mem_map.mp hc
    exact hconv f hfm
  have hne : ∃ c ∈ (normalizeTokens (tokenize (lead ++ rest) l)).map (fun t => applyCardinalConversion t ld), blank c = false := by
    have hin : norm w0 ∈ ((sol l (lead ++ rest)).map norm).filter (fun t => !isSkipToken t ld) := by
      rw [hf.words, hws]; simp
    obtain ⟨t, ht', he⟩ := List.mem_map.mp (List.mem_filter.mp hin).1
    refine ⟨applyCardinalConversion (norm w0) ld, List.mem_map.mpr ⟨norm w0, ?_, rfl⟩, key_blank hwf (hk w0 (by rw [hws]; simp)).2.2.1⟩
    rw [tokenize_eq, hns]
    rw [← he]
    exact List.mem_map.mpr ⟨t, (List.mem_filter.mp ht').1, rfl⟩
  have key := parseOrdinal_words (s := lead ++ rest) hl (by rw [hld]; exact hmapc) (by rw [hld, ← hmapc]; exact hall) (by rw [hld]; exact hfirst)
    (by rw [← hmapc]; exact hne)
  rw [key, hld, ← hmapc, solidNumber_eq hwf.toDisjoint, if_pos]
  · -- the classes of the words
    have e1 : ((normalizeTokens (tokenize (lead ++ rest) l)).map (fun t => applyCardinalConversion t ld)).filter (fun t => !blank t) =
        ((sol l (lead ++ rest)).map norm).map (fun t => applyCardinalConversion t ld) := by
      rw [List.filter_map]
      have : (normalizeTokens (tokenize (lead ++ rest) l)).filter ((fun t => !blank t) ∘ fun t => applyCardinalConversion t ld) =
          (normalizeTokens (tokenize (lead ++ rest) l)).filter (fun t => !blank t) := by
        apply List.filter_congr
        intro f hfm
        show (!blank (applyCardinalConversion f ld)) = !blank f
        rcases htok f hfm with hb | hs | ⟨w, hw, rfl⟩
        · rw [conv_blank _ hb]
        · rw [(stable_skip hdat hs).2.2]
        · rw [key_blank hwf (hk w hw).2.2.1, (hk w hw).1]
      rw [this]
      have h2 : (normalizeTokens (tokenize (lead ++ rest) l)).filter (fun t => !blank t) = solid l (lead ++ rest) := rfl
      rw [h2, solid_eq, hns]
      congr 1
      apply List.filter_eq_self.mpr
      intro f hfm
      obtain ⟨t, ht', rfl⟩ := List.mem_map.mp hfm
      have hmem' : norm t ∈ normalizeTokens (tokenize (lead ++ rest) l) := by
        rw [tokenize_eq, hns]; exact List.mem_map.mpr ⟨t, (List.mem_filter.mp ht').1, rfl⟩
      cases hs : isSkipToken (norm t) ld with
      | true => rw [skip_blank hwf hs]; rfl
      | false =>
        have : norm t ∈ ws.map norm := by
          rw [← hf.words, List.mem_filter]; exact ⟨hfm, by simp [hs]⟩
        obtain ⟨w, hw, he⟩ := List.mem_map.mp this
        rw [← he, (hk w hw).1]; rfl
    rw [e1, kinds_filter hwf, List.filter_map]
    have e2 : ((sol l (lead ++ rest)).map norm).filter ((fun t => !isSkipToken t ld) ∘ fun t => applyCardinalConversion t ld) =
        ((sol l (lead ++ rest)).map norm).filter (fun t => !isSkipToken t ld) := by
      apply List.filter_congr
      intro f hfm
      show (!isSkipToken (applyCardinalConversion f ld) ld) = !isSkipToken f ld
      cases hs : isSkipToken f ld with
      | true => rw [(stable_skip hdat hs).2.2, hs]
      | false =>
        have : f ∈ ws.map norm := by rw [← hf.words, List.mem_filter]; exact ⟨hfm, by simp [hs]⟩
        obtain ⟨w, hw, rfl⟩ := List.mem_map.mp this
        have := key_skip hwf (hk w hw).2.2.1
        rw [show isSkipToken (applyCardinalConversion (norm w) ld) ld = false from this]
    rw [e2, hf.words, List.map_map]
    have e3 : ∀ us : List PyStr, (∀ w ∈ us, ld.allNumbers.mem (applyCardinalConversion (norm w) ld) = true) →
        kinds ld (us.map ((fun t => applyCardinalConversion t ld) ∘ norm)) = us.map (fun w => kindOf ld (applyCardinalConversion (norm w) ld)) := by
      intro us
      induction us with
      | nil => intro _; rfl
      | cons u us ih =>
        intro hu
        have := kinds_append ld [applyCardinalConversion (norm u) ld] (us.map ((fun t => applyCardinalConversion t ld) ∘ norm))
        rw [List.singleton_append] at this
        rw [List.map_cons, List.map_cons]
        show kinds ld (applyCardinalConversion (norm u) ld :: _) = _
        rw [this, kinds_key hwf (hu u (by simp)), ih (fun w hw => hu w (List.mem_cons_of_mem _ hw))]; rfl
    rw [e3 ws (fun w hw => (hk w hw).2.2.1)]; rfl
  · rw [List.all_eq_true]
    intro c hc
    obtain ⟨hc1, hc2⟩ := List.mem_filter.mp hc
    rcases hall c hc1 with hb | hn
    · rw [hb] at hc2; cases hc2
    · exact hn.1

end NumberParser
