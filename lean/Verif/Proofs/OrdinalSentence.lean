import Verif.Proofs.Closed
import Verif.Props.Ordinals

/-! English ordinals in `parse` (C59). -/

set_option linter.unusedSimpArgs false

namespace NumberParser
open Spec NumberParser.Props

set_option maxRecDepth 100000

/-- The tokens of a written-out number: its words, with blank tokens and conjunctions between them. -/
inductive TextTokens (l : PyStr) : List PyStr → List PyStr → Prop where
  | last {w v : PyStr} {bl : List PyStr} : form v = form w → (∀ x ∈ bl, ∀ c ∈ x, isSpace c = true) → TextTokens l [w] (v :: bl)
  | cons {w v : PyStr} {ws mid rest : List PyStr} : form v = form w → (∀ x ∈ mid, BlankForm x ∨ Skip l x) → TextTokens l ws rest →
      TextTokens l (w :: ws) (v :: (mid ++ rest))

/-- A gap between tokens. -/
def Middle (g : PyStr) (P : PyStr → Prop) (mid : List PyStr) : Prop :=
  (∀ ta tb, WordTokens ta → WordTokens tb → WordTokens (ta ++ mid ++ tb)) ∧ mid.flatten = g ∧ ∀ x ∈ mid, P x

theorem middle_append {g h v : PyStr} {P : PyStr → Prop} {m m' : List PyStr} (hm : Middle g P m) (hm' : Middle h P m') (hv : ∀ c ∈ v, isWord c = true)
    (hp : P v) : Middle (g ++ v ++ h) P (m ++ [v] ++ m') := by
  obtain ⟨h1, h2, h3⟩ := hm
  obtain ⟨h4, h5, h6⟩ := hm'
  refine ⟨fun ta tb ha hb => ?_, by simp [h2, h5], ?_⟩
  · have := h1 ta _ ha (h4 [v] tb (.last hv) hb)
    simpa using this
  · intro x hx
    rcases List.mem_append.mp hx with hx | hx
    · rcases List.mem_append.mp hx with hx | hx
      · exact h3 x hx
      · rw [List.mem_singleton] at hx; subst hx; exact hp
    · exact h6 x hx

theorem middle_chars {P : PyStr → Prop} (h0 : P []) (g : PyStr) (hne : g ≠ []) (hg : ∀ c ∈ g, isWord c = false ∧ P [c]) : ∃ mid, Middle g P mid := by
  induction g with
  | nil => exact absurd rfl hne
  | cons c g ih =>
    have h1 : Middle [c] P [[c]] := by
      refine ⟨fun ta tb ha hb => ?_, rfl, by simpa using (hg c (by simp)).2⟩
      rw [List.append_assoc]; exact wordTokens_append ha hb (hg c (by simp)).1
    by_cases h : g = []
    · subst h; exact ⟨_, h1⟩
    · obtain ⟨mid, h2⟩ := ih h (fun d hd => hg d (List.mem_cons_of_mem _ hd))
      exact ⟨_, middle_append h1 h2 (v := []) (by simp) h0⟩

theorem space_nonword {c : Nat} (h : isSpace c = true) : isWord c = false := by
  cases hw : isWord c with
  | false => rfl
  | true => rw [word_not_space hw] at h; cases h

theorem blankForm_spaces {t : PyStr} (h : ∀ c ∈ t, isSpace c = true) : BlankForm t := by
  rw [blankForm_iff]; exact blank_norm ((blank_spec t).mpr h)

theorem joiner_en {c : Nat} (h : Spec.en.joiner c = true) : isWord c = false ∧ (BlankForm [c] ∨ Skip u!"en" [c]) := by
  have h : (isSpace c || c == 0x2d) = true := h
  rw [Bool.or_eq_true, beq_iff_eq] at h
  rcases h with h | rfl
  · exact ⟨space_nonword h, Or.inl (blankForm_spaces (by simpa using h))⟩
  · exact ⟨by decide +kernel, Or.inr ((skip_iff _ _).mpr (by decide +kernel))⟩

theorem gap_middle {g : PyStr} (h : Gap Spec.en g) : ∃ mid, Middle g (fun x => BlankForm x ∨ Skip u!"en" x) mid := by
  induction h with
  | sep hne hg => exact middle_chars (Or.inl blankForm_nil) _ hne (fun c hc => joiner_en (hg c hc))
  | @filler g f v rest hne hg hf hv _ ih =>
    obtain ⟨m, hm⟩ := middle_chars (P := fun x => BlankForm x ∨ Skip u!"en" x) (Or.inl blankForm_nil) g hne (fun c hc => joiner_en (hg c hc))
    obtain ⟨m', hm'⟩ := ih
    refine ⟨_, middle_append hm hm' hv.1 (Or.inr ?_)⟩
    have hf : f = u!"and" := by simpa [Spec.en] using hf
    subst hf
    unfold Skip
    rw [hv.2]; decide +kernel

theorem text_tokens {ws : List PyStr} {text : PyStr} (h : Text Spec.en ws text) :
    ∃ ts, WordTokens ts ∧ ts.flatten = text ∧ TextTokens u!"en" ws ts := by
  induction h with
  | @last w v trail hv ht =>
    by_cases h0 : trail = []
    · subst h0
      exact ⟨[v], .last hv.1, by simp, .last hv.2 (by simp)⟩
    · obtain ⟨m, h1, h2, h3⟩ := middle_chars (P := fun x => ∀ c ∈ x, isSpace c = true) (by simp) trail h0
        (fun c hc => ⟨space_nonword (ht c hc), by simpa using ht c hc⟩)
      refine ⟨v :: (m ++ [[]]), ?_, by simp [h2], .last hv.2 ?_⟩
      · have := h1 [v] [[]] (.last hv.1) (.last (by simp))
        simpa using this
      · intro x hx
        rcases List.mem_append.mp hx with hx | hx
        · exact h3 x hx
        · rw [List.mem_singleton] at hx; subst hx; simp
  | @cons w v g rest ws hv hg _ ih =>
    obtain ⟨ts, i1, i2, i3⟩ := ih
    obtain ⟨m, h1, h2, h3⟩ := gap_middle hg
    refine ⟨v :: (m ++ ts), ?_, by simp [h2, i2], .cons hv.2 h3 i3⟩
    have := h1 [v] ts (.last hv.1) i1
    simpa using this

theorem text_noShy {ws : List PyStr} {text : PyStr} (h : Text Spec.en ws text) : withoutSoftHyphens text = text := by
  apply List.filter_eq_self.mpr
  have sp : ∀ c, isSpace c = true → (c != 0xad) = true := by
    intro c hc; rw [bne_iff_ne]; rintro rfl; revert hc; decide
  have wd : ∀ c, isWord c = true → (c != 0xad) = true := by
    intro c hc; rw [bne_iff_ne]; rintro rfl; revert hc; decide +kernel
  have jn : ∀ c, Spec.en.joiner c = true → (c != 0xad) = true := by
    intro c hc; rw [bne_iff_ne]; rintro rfl; revert hc; decide
  have gp : ∀ {g : PyStr}, Gap Spec.en g → ∀ c ∈ g, (c != 0xad) = true := by
    intro g hg
    induction hg with
    | sep _ h => exact fun c hc => jn c (h c hc)
    | filler _ h _ hv _ ih =>
      intro c hc
      rcases List.mem_append.mp hc with hc | hc
      · rcases List.mem_append.mp hc with hc | hc
        · exact jn c (h c hc)
        · exact wd c (hv.1 c hc)
      · exact ih c hc
  induction h with
  | last hv ht =>
    intro c hc
    rcases List.mem_append.mp hc with hc | hc
    · exact wd c (hv.1 c hc)
    · exact sp c (ht c hc)
  | cons hv hg _ ih =>
    intro c hc
    rcases List.mem_append.mp hc with hc | hc
    · rcases List.mem_append.mp hc with hc | hc
      · exact wd c (hv.1 c hc)
      · exact gp hg c hc
    · exact ih c hc

/-- The tokens of words of which only the last is an ordinal. -/
theorem textTokens_run {l : PyStr} {init : List PyStr} {last : PyStr} {cs : List (Class × Nat)} {ts : List PyStr} (hc : Classified l init cs)
    (h : TextTokens l (init ++ [last]) ts) : ∃ run is v bl, ts = run ++ v :: bl ∧ RunTokens l run is ∧ runWords is = cs ∧
      (run = [] ∧ is = [] ∨ Run l run is) ∧ form v = form last ∧ ∀ x ∈ bl, ∀ c ∈ x, isSpace c = true := by
  induction hc generalizing ts with
  | nil =>
    cases h with
    | last hv hb => exact ⟨[], [], _, _, rfl, .nil, rfl, Or.inl ⟨rfl, rfl⟩, hv, hb⟩
    | cons _ _ h => cases h
  | @cons w k v init cs hw hc ih =>
    generalize hx : w :: init ++ [last] = xs at h
    cases h with
    | last _ _ => simp at hx
    | @cons w' v' ws' mid rest hv hm h =>
      injection hx with hx1 hx2
      subst hx1 hx2
      obtain ⟨run, is, u, bl, rfl, h1, h2, _, h4, h5⟩ := ih h
      have hw' : Word l k v v' := by unfold Word; rw [hv]; exact hw
      have hmid : ∀ mid : List PyStr, (∀ x ∈ mid, BlankForm x ∨ Skip l x) → ∃ js, RunTokens l mid js ∧ runWords js = [] := by
        intro mid hm
        induction mid with
        | nil => exact ⟨[], .nil, rfl⟩
        | cons x mid ih =>
          obtain ⟨js, j1, j2⟩ := ih (fun y hy => hm y (List.mem_cons_of_mem _ hy))
          rcases hm x (by simp) with hb | hs
          · exact ⟨js, .blank hb j1, j2⟩
          · exact ⟨_, .conj hs j1, j2⟩
      obtain ⟨js, j1, j2⟩ := hmid mid hm
      have hr := RunTokens.word hw' (runTokens_append j1 h1)
      refine ⟨v' :: (mid ++ run), _, u, bl, by simp, hr, ?_, Or.inr ⟨hr, v', _, rfl, ⟨k, v, hw'⟩⟩, h4, h5⟩
      show (k, v) :: runWords (js ++ is) = _
      rw [runWords_append, j2, h2]; rfl

theorem notCardinal_check : enVocabulary.all (fun w => !(mkLangData Data.en).allNumbers.mem (norm (enOrdinal w))) = true := by decide +kernel

theorem classified_exists {l : PyStr} (hl : l ∈ supported) {ws : List PyStr} (h : ∀ w ∈ ws, (mkLangData (file l)).allNumbers.mem (norm w) = true) :
    ∃ cs, Classified l ws cs ∧ kindsOf cs = wordKinds (mkLangData (file l)) ws ∧ PosScale cs := by
  induction ws with
  | nil => exact ⟨[], .nil, rfl, fun p hp => by cases hp⟩
  | cons w ws ih =>
    obtain ⟨cs, h1, h2, h3⟩ := ih (fun v hv => h v (List.mem_cons_of_mem _ hv))
    obtain ⟨k, v, hk⟩ := (allNumbers_iff hl _).mp (h w (by simp))
    refine ⟨(k, v) :: cs, .cons hk h1, ?_, ?_⟩
    · unfold kindsOf wordKinds at *
      rw [List.map_cons, List.map_cons, h2, kindOf_class hl hk]
    · intro p hp
      rcases List.mem_cons.mp hp with e | hp
      · injection e with e1 e2; subst e1 e2; exact scale_pos hl hk
      · exact h3 p hp

/-- The tokens of an English ordinal, and their conversion. -/
theorem ordinal_converted {n : Nat} (hn : n < 10 ^ 24) {text : PyStr} (h : Text Spec.en (enOrdinalWords n) text) :
    ∃ (ts bl : List PyStr), Tokens u!"en" text ts ∧ EndsClosed u!"en" ts ∧ WordTokens ts ∧ (∀ x ∈ bl, ∀ c ∈ x, isSpace c = true) ∧
      Converted u!"en" ts (decDigits n ++ bl.flatten) := by
  obtain ⟨ws, last, e1, e2, hc⟩ := enOrdinalWords_facts hn
  have hl : u!"en" ∈ supported := by decide
  obtain ⟨hval, hnum⟩ := en_words hn
  have hall := AllNum.mem wf_en hnum
  rw [e1] at hall hval
  obtain ⟨cs, hcs, hks, hpos⟩ := classified_exists hl (ws := ws) (fun w hw => hall w (List.mem_append_left _ hw))
  obtain ⟨k, v, hk⟩ := (allNumbers_iff hl _).mp (hall last (by simp))
  obtain ⟨ts, hwt, hfl, htt⟩ := text_tokens h
  rw [e2] at htt
  obtain ⟨run, is, u, bl, rfl, h1, h2, h3, h4, h5⟩ := textTokens_run hcs htt
  have hlast : last ∈ enVocabulary := enVocabulary_mem (n := n) (by rw [e1]; simp)
  have hoc := hc last (by simp)
  unfold ordinalCheck at hoc
  rw [Bool.and_eq_true, List.all_eq_true] at hoc
  have hoc' := hoc.1 (enOrdinal last) (by simp)
  simp only [Bool.and_eq_true, Bool.not_eq_true', beq_iff_eq] at hoc'
  have hnc := List.all_eq_true.mp notCardinal_check last hlast
  rw [Bool.not_eq_true'] at hnc
  have hconv := hoc'.1.2
  have hO : OrdinalWord u!"en" k v u := by
    have hnum : isNumberToken (norm (enOrdinal last)) (mkLangData (file u!"en")) = some (norm last) := by
      show isNumberToken (norm (enOrdinal last)) (mkLangData Data.en) = some (norm last)
      have hm : (mkLangData Data.en).allNumbers.mem (norm last) = true := hall last (by simp)
      generalize mkLangData Data.en = ld at hconv hnc hm
      unfold isNumberToken isCardinalToken
      rw [hconv, if_pos hm]
    have hn : ¬ Cardinal u!"en" u := by
      rw [cardinal_iff hl, show norm u = form u from rfl, h4]
      show ¬ (mkLangData Data.en).allNumbers.mem (norm (enOrdinal last)) = true
      rw [hnc]; simp
    refine ⟨hn, norm last, hk, ?_⟩
    have := ((numberToken_iff hl).mp hnum).2
    unfold StandsFor at this
    rw [h4]; exact this
  have hread : ReadsAs u!"en" (cs ++ [(k, v)]) n := by
    rw [readsAs_run]
    · rw [kindsOf_append, hks, show kindsOf [(k, v)] = [kindOf (mkLangData (file u!"en")) (norm last)] by rw [kindOf_class hl hk]; rfl]
      unfold kindsValue wordKinds at hval
      unfold wordKinds
      rw [List.map_append] at hval
      exact Option.map_eq_some_iff.mp hval
    · intro p hp
      rcases List.mem_append.mp hp with hp | hp
      · exact hpos p hp
      · rw [List.mem_singleton] at hp; injection hp with e1 e2; subst e1 e2; exact scale_pos hl hk
  refine ⟨run ++ u :: bl, bl, ⟨by rw [hfl, text_noShy h], hwt⟩, Or.inr ⟨run, u, bl, rfl, Or.inr ⟨k, v, hO⟩, fun x hx => blankForm_spaces (h5 x hx)⟩, hwt, h5, ?_⟩
  have hcut : Cut u!"en" (is ++ [.word k v]) [decDigits n] := .last (by rw [runWords_append, h2]; exact hread)
  refine Converted.ordinal h3 hO hcut ?_
  have := keep_blanks h5 (Converted.nil (l := u!"en"))
  simpa using this

/-- An English ordinal begins with a letter. -/
theorem ordinal_startsNS {n : Nat} (hn : n < 10 ^ 24) {text : PyStr} (h : Text Spec.en (enOrdinalWords n) text) :
    ∃ c y, text = c :: y ∧ isSpace c = false := by
  obtain ⟨ws, last, e1, e2, hc⟩ := enOrdinalWords_facts hn
  have hb : ∀ w ∈ enOrdinalWords n, norm w ≠ [] := by
    intro v hvm e
    rw [e2] at hvm
    have : ∃ w ∈ ws ++ [last], v ∈ [w, enOrdinal w] := by
      rcases List.mem_append.mp hvm with h1 | h1
      · exact ⟨v, List.mem_append_left _ h1, by simp⟩
      · rw [List.mem_singleton] at h1; subst h1; exact ⟨last, by simp, by simp⟩
    obtain ⟨w, hw, hwv⟩ := this
    have := hc w hw
    unfold ordinalCheck at this
    rw [Bool.and_eq_true, List.all_eq_true] at this
    have h1 := this.1 v hwv
    simp only [Bool.and_eq_true, Bool.not_eq_true'] at h1
    have h2 := h1.1.1.1
    rw [e] at h2; revert h2; decide
  have key : ∀ v w : PyStr, norm w ≠ [] → Writes Spec.en w v → ∃ c y, v = c :: y ∧ isSpace c = false := by
    intro v w hw hv
    cases v with
    | nil =>
      have e : norm [] = norm w := hv.2
      exact absurd (e.symm.trans (by decide)) hw
    | cons c y => exact ⟨c, y, rfl, word_not_space (hv.1 c (by simp))⟩
  generalize enOrdinalWords n = os at h hb
  cases h with
  | @last w v trail hv ht =>
    obtain ⟨c, y, rfl, hs⟩ := key v _ (hb _ (by simp)) hv
    exact ⟨c, _, rfl, hs⟩
  | @cons w v g rest ws' hv hg ht =>
    obtain ⟨c, y, rfl, hs⟩ := key v _ (hb _ (by simp)) hv
    exact ⟨c, _, rfl, hs⟩

/-- `parse` of an English ordinal. -/
theorem parse_ordinal_rendering {n : Nat} (hn : n < 10 ^ 24) {text : PyStr} (h : Rendering Spec.en (enOrdinalWords n) text) :
    parse text (some u!"en") = .ok (decDigits n) := by
  have hl : u!"en" ∈ supported := by decide
  obtain ⟨lead, rest, hlead, ht, rfl⟩ := h
  obtain ⟨ts, bl, h1, h2, h3, h4, h5⟩ := ordinal_converted hn ht
  have key : ∃ ts' mid : List PyStr, Tokens u!"en" (lead ++ rest) ts' ∧ mid.flatten = lead ∧
      Converted u!"en" ts' (mid.flatten ++ (decDigits n ++ bl.flatten)) := by
    by_cases h0 : lead = []
    · subst h0; exact ⟨ts, [], h1, rfl, h5⟩
    · obtain ⟨m, m1, m2, m3⟩ := middle_chars (P := fun x => ∀ c ∈ x, isSpace c = true) (by simp) lead h0
        (fun c hc => ⟨space_nonword (hlead c hc), by simpa using hlead c hc⟩)
      refine ⟨[] :: (m ++ ts), [] :: m, ⟨?_, ?_⟩, by simp [m2], ?_⟩
      · unfold withoutSoftHyphens
        rw [List.filter_append]
        have e := h1.1
        unfold withoutSoftHyphens at e
        rw [← e, List.filter_eq_self.mpr]
        · simp [m2]
        · intro c hc
          have := hlead c hc
          rw [bne_iff_ne]; rintro rfl; revert this; decide
      · have := m1 [[]] ts (.last (by simp)) h3
        simpa using this
      · exact keep_blanks (mid := [] :: m) (by
          intro t ht
          rcases List.mem_cons.mp ht with rfl | ht
          · simp
          · exact m3 t ht) h5
  obtain ⟨ts', mid, k1, k2, k3⟩ := key
  rw [parse_eq (supported_data hl), ← (tokens_iff _ _ _).mp k1, converted_pieces hl k3, k2]
  congr 1
  refine strip_number hlead ?_ n
  intro c hc
  obtain ⟨x, hx, hcx⟩ := List.mem_flatten.mp hc
  exact h4 x hx c hcx

end NumberParser
