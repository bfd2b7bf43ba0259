import Verif.Proofs.Sentence
import Verif.Proofs.Forms

/-! Sentences with spelled numbers (C45, C10). -/

set_option linter.unusedSimpArgs false

namespace NumberParser
open Spec

/-- The facts about a language with spelled numbers. -/
structure LangOK (L : Lang) (ld : LangData) : Prop where
  style : StyleOK L.style L.code ld
  nohi : L.code ≠ u!"hi"
  sup : L.code ∈ supported
  data : ld = mkLangData (file L.code)
  words : ∀ n, n < L.bound → kindsValue ld.maximumGroupValue (wordKinds ld (L.words n)) = some n ∧ AllNum ld (L.words n)

theorem langOK_en : LangOK english ldEn := ⟨style_en, by decide, by decide, rfl, fun _ h => en_words h⟩
theorem langOK_es : LangOK spanish ldEs := ⟨style_es, by decide, by decide, rfl, fun _ h => es_words h⟩
theorem langOK_ru : LangOK russian ldRu := ⟨style_ru, by decide, by decide, rfl, fun _ h => ru_words h⟩
theorem langOK_uk : LangOK ukrainian ldUk := ⟨style_uk, by decide, by decide, rfl, fun _ h => uk_words h⟩

theorem langOK {L : Lang} (h : L ∈ wordLanguages) : ∃ ld, LangOK L ld ∧ L.code ∈ supported ∧ ld = mkLangData (file L.code) := by
  simp only [wordLanguages, List.mem_cons, List.not_mem_nil, or_false] at h
  rcases h with rfl | rfl | rfl | rfl
  · exact ⟨_, langOK_en, by decide, rfl⟩
  · exact ⟨_, langOK_es, by decide, rfl⟩
  · exact ⟨_, langOK_ru, by decide, rfl⟩
  · exact ⟨_, langOK_uk, by decide, rfl⟩

theorem spells_numText {L : Lang} {ld : LangData} (h : LangOK L ld) {n : Nat} {t : PyStr} (hs : Spells L n t) :
    NumText L.code ld t n := by
  obtain ⟨h1, ⟨ws, hws, h2⟩, h3⟩ := hs
  have hk := form_kinds h.sup hws
  rw [← h.data] at hk
  refine text_numText h.style h.nohi h2 hk.2 h3 ?_
  rw [hk.1]; exact (h.words n h1).1

/-- The usual words are a form. -/
theorem form_words {L : Lang} {ld : LangData} (h : LangOK L ld) {n : Nat} (hn : n < L.bound) : L.Form n (L.words n) := by
  have := AllNum.mem (languageData_wf h.style.lang) (h.words n hn).2
  rw [h.data] at this
  exact form_of h.sup this this rfl

/-- A run for the number `n` is pending, and a blank token followed it; or nothing is pending. -/
def Pend (ld : LangData) (q : QState) (x : PyStr) : Prop :=
  (q.taken = [] ∧ x = []) ∨
  (∃ n, q.taken ≠ [] ∧ q.pop = false ∧ nums ld q.taken = [decDigits n, u!" "] ∧
    flushedWord ld q.taken = [decDigits n, u!" "] ∧ x = decDigits n ++ u!" ")

theorem split_flatten (l s : PyStr) : (split l s).flatten = s := by
  unfold split; split
  · exact splitSpaces_flatten s
  · exact splitNonWord_flatten s

theorem step_blank_nil {ld : LangData} {q : QState} {t : PyStr} (hb : blank (norm t) = true) (hq : q.taken = []) :
    stepQ ld q t = ⟨q.out ++ [t], [], true⟩ := by
  unfold stepQ; rw [classify_blank.mpr hb]; simp [hq]

theorem step_blank_pend {ld : LangData} {q : QState} {t : PyStr} (hb : blank (norm t) = true) (hq : q.taken ≠ []) :
    stepQ ld q t = ⟨q.out, q.taken, false⟩ := by
  have he : q.taken.isEmpty = false := by cases hq' : q.taken <;> simp_all
  unfold stepQ; rw [classify_blank.mpr hb]; simp [he]

theorem run_plain_nil {l : PyStr} {ld : LangData} (hl : languageData l = .ok ld) {t : PyStr}
    (h : ∀ w ∈ split l t, isNumberToken (norm w) ld = none) {q : QState} (hq : q.taken = []) :
    (runQ ld (split l t) q).out.flatten = q.out.flatten ++ t ∧ (runQ ld (split l t) q).taken = [] := by
  obtain ⟨h1, h2⟩ := run_plain hl _ h q hq
  refine ⟨?_, h2⟩
  rw [h1, List.flatten_append, split_flatten]

theorem run_plain_pend {l : PyStr} {ld : LangData} (hl : languageData l = .ok ld) {t : PyStr}
    (h : ∀ w ∈ split l t, isNumberToken (norm w) ld = none) {q : QState} {x : PyStr} (hq : Pend ld q x)
    (ho : x ≠ [] → ∃ w rest, blank (norm w) = false ∧ isSkipToken (norm w) ld = false ∧
      (split l t = w :: rest ∨ split l t = [] :: w :: rest)) :
    (runQ ld (split l t) q).out.flatten = q.out.flatten ++ x ++ t ∧ (runQ ld (split l t) q).taken = [] := by
  rcases hq with ⟨h1, rfl⟩ | ⟨n, h1, h2, h3, h4, rfl⟩
  · rw [List.append_nil]; exact run_plain_nil hl h h1
  · obtain ⟨w, rest, hb, hk, hs⟩ := ho (by simp)
    have hstep : ∀ r : QState, r.out = q.out → r.taken = q.taken → r.pop = false → isNumberToken (norm w) ld = none →
        (stepQ ld r w).out = q.out ++ [decDigits n, u!" "] ++ [w] ∧ (stepQ ld r w).taken = [] := by
      intro r r1 r2 r3 hw
      unfold stepQ
      rcases classify_cases hl hw with hc | hc | ⟨w', hc⟩ | hc <;> rw [hc]
      · rw [classify_blank] at hc; rw [hb] at hc; cases hc
      · refine ⟨?_, rfl⟩
        simp only [flushed, r1, r2, r3]
        rw [if_neg (by simp), h3]
      · have := (classify_skip_mem hc).2.1; rw [hk] at this; cases this
      · refine ⟨?_, rfl⟩
        simp only [r1, r2]; rw [h4]
    have hcomplete : ∀ r : QState, r.out = q.out → r.taken = q.taken → r.pop = false → isNumberToken (norm w) ld = none →
        (∀ y ∈ rest, isNumberToken (norm y) ld = none) →
        (runQ ld (w :: rest) r).out.flatten = q.out.flatten ++ (decDigits n ++ u!" ") ++ (w ++ rest.flatten) ∧
          (runQ ld (w :: rest) r).taken = [] := by
      intro r r1 r2 r3 hw hr
      obtain ⟨e1, e2⟩ := hstep r r1 r2 r3 hw
      obtain ⟨e3, e4⟩ := run_plain hl rest hr _ e2
      rw [runQ_cons]
      refine ⟨?_, e4⟩
      rw [e3, e1]; simp
    rcases hs with hs | hs
    · have hf := split_flatten l t
      rw [hs] at h ⊢
      rw [hs] at hf
      rw [← hf]
      simpa using hcomplete q rfl rfl h2 (h w (by simp)) (fun y hy => h y (by simp [hy]))
    · have hf := split_flatten l t
      rw [hs] at h ⊢
      rw [hs] at hf
      rw [← hf, runQ_cons, step_blank_pend (by rfl) h1]
      simpa using hcomplete ⟨q.out, q.taken, false⟩ rfl rfl rfl (h w (by simp)) (fun y hy => h y (by simp [hy]))

theorem sep_mark {l : PyStr} (hl : l ≠ u!"hi") {c : Nat} (h : c = 0x2e ∨ c = 0x2c) : sepChar l c = true := by
  rw [nonhi_sepChar hl]; rcases h with rfl | rfl <;> decide +kernel

theorem classify_mark {ld : LangData} {c : Nat} (h : c = 0x2e ∨ c = 0x2c) : classify ld [c] = .sep := by
  unfold classify
  have h1 : blank (norm [c]) = false ∧ SENTENCE_SEPARATORS.elem (norm [c]) = true := by
    rcases h with rfl | rfl <;> decide +kernel
  simp only
  rw [if_neg (by rw [h1.1]; simp), if_pos h1.2]

/-- A number directly followed by a full stop or comma. -/
theorem run_ended {l : PyStr} {ld : LangData} (hl : languageData l = .ok ld) (hh : l ≠ u!"hi") {t : PyStr} {n : Nat}
    (h : NumText l ld t n) {c : Nat} (hc : c = 0x2e ∨ c = 0x2c) {q : QState} (hq : q.taken = []) :
    (runQ ld (split l (t ++ [c])) q).out.flatten = q.out.flatten ++ (decDigits n ++ [c]) ∧
      (runQ ld (split l (t ++ [c])) q).taken = [] := by
  obtain ⟨h1, h2, h3, h4⟩ := run_numText (languageData_wf hl) h q hq
  have : split l (t ++ [c]) = split l t ++ [[c], []] := by
    rw [split_append_sep hh t [] (sep_mark hh hc), nonhi_split hh []]; rfl
  rw [this, runQ_append, h1, runQ_cons]
  have hs : stepQ ld ⟨q.out, nbs (split l t), true⟩ [c] = ⟨q.out ++ [decDigits n] ++ [[c]], [], true⟩ := by
    unfold stepQ; rw [classify_mark hc]
    simp only [flushed, if_true, h2]
    rfl
  rw [hs, runQ_cons, step_blank_nil rfl rfl]
  refine ⟨by simp [runQ], rfl⟩

theorem spaced_cons (w : PyStr) {ws : List PyStr} (h : ws ≠ []) : spaced (w :: ws) = w ++ 32 :: spaced ws := by
  cases ws with
  | nil => exact absurd rfl h
  | cons a as => simp [spaced]

theorem plain_tokens {L : Lang} {ld : LangData} (hs : L.code ∈ supported) (hf : ld = mkLangData (file L.code)) {t : PyStr}
    (h : Part.OK L (.plain t)) : ∀ w ∈ split L.code t, isNumberToken (norm w) ld = none := by
  obtain ⟨_, _, _, h1, h2⟩ := h
  intro w hw
  have := h2 _ (tokens_tokenize L.code t) w (by rw [tokenize_eq, noShy_mem (fun c hc e => h1 (e ▸ hc))]; exact hw)
  rw [numberWord_iff hs] at this
  subst hf
  simpa using this

theorem part_noshy {L : Lang} {ld : LangData} (h : LangOK L ld) {p : Part} (hp : p.OK L) : ∀ c ∈ p.text, c ≠ 0xad := by
  cases p with
  | plain t => intro c hc e; exact hp.2.2.2.1 (e ▸ hc)
  | number n t => exact (spells_numText h hp).noshy
  | ended n t m =>
    intro c hc
    rcases List.mem_append.mp hc with hc | hc
    · exact (spells_numText h hp.1).noshy c hc
    · simp only [List.mem_singleton] at hc; subst hc
      rcases hp.2 with rfl | rfl <;> decide

theorem spaced_noshy {ts : List PyStr} (h : ∀ t ∈ ts, ∀ c ∈ t, c ≠ 0xad) : ∀ c ∈ spaced ts, c ≠ 0xad := by
  induction ts with
  | nil => intro c hc; cases hc
  | cons t ts ih =>
    by_cases he : ts = []
    · subst he; exact h t List.mem_cons_self
    · rw [spaced_cons t he]
      intro c hc
      rcases List.mem_append.mp hc with hc | hc
      · exact h t List.mem_cons_self c hc
      · rcases List.mem_cons.mp hc with rfl | hc
        · decide
        · exact ih (fun t' ht' => h t' (List.mem_cons_of_mem _ ht')) c hc

theorem Sentence.ok {L : Lang} {ps : List Part} (h : Sentence L ps) : ∀ p ∈ ps, p.OK L := by
  induction ps with
  | nil => simp
  | cons p ps ih =>
    cases ps with
    | nil => intro x hx; simp at hx; subst hx; exact h
    | cons p' ps =>
      intro x hx
      rcases List.mem_cons.mp hx with rfl | hx
      · exact h.1
      · exact ih h.2.2 x hx

/-- The head of the list is ordinary text. -/
def HeadOrdinary (L : Lang) : List Part → Prop
  | .plain t :: _ => StartsOrdinary L.code t
  | _ => False

theorem startsOrdinary_split {L : Lang} {ld : LangData} (hf : ld = mkLangData (file L.code)) {t : PyStr}
    (hns : ∀ c ∈ t, c ≠ 0xad) (h : StartsOrdinary L.code t) :
    ∃ w rest, blank (norm w) = false ∧ isSkipToken (norm w) ld = false ∧
      (split L.code t = w :: rest ∨ split L.code t = [] :: w :: rest) := by
  obtain ⟨w, rest, ⟨⟨c, hc, hs⟩, _, h2⟩, h3⟩ := h
  refine ⟨w, rest, not_blank_of_mem hc hs, ?_, ?_⟩
  · rw [skip_iff, ← hf] at h2; simpa using h2
  · rw [tokens_iff, tokens_iff, tokenize_eq, noShy_mem hns] at h3
    exact h3.imp Eq.symm Eq.symm

theorem sentence_run {L : Lang} {ld : LangData} (h : LangOK L ld) (hs : L.code ∈ supported) (hf : ld = mkLangData (file L.code))
    (ps : List Part) (hps : Sentence L ps) (hne : ps ≠ []) (q : QState) (x : PyStr) (hq : Pend ld q x)
    (hx : x ≠ [] → HeadOrdinary L ps) :
    ∃ tail, (finishQ ld (runQ ld (split L.code (spaced (ps.map Part.text))) q)).flatten =
      q.out.flatten ++ x ++ spaced (ps.map Part.result) ++ tail ∧ (tail = [] ∨ tail = u!" ") := by
  have hl := h.style.lang
  have hw := languageData_wf hl
  induction ps generalizing q x with
  | nil => exact absurd rfl hne
  | cons p ps ih =>
    have hp : p.OK L := Sentence.ok hps p List.mem_cons_self
    -- the part itself
    have hpart : (∃ r, runQ ld (split L.code p.text) q = r ∧ r.out.flatten = q.out.flatten ++ x ++ p.result ∧ r.taken = []) ∨
        (∃ r n t, p = .number n t ∧ runQ ld (split L.code p.text) q = r ∧ r.out.flatten = q.out.flatten ++ x ∧ r.taken ≠ [] ∧
          nums ld r.taken = [decDigits n, u!" "] ∧ flushedWord ld r.taken = [decDigits n, u!" "]) := by
      cases p with
      | plain t =>
        left
        refine ⟨_, rfl, ?_⟩
        exact run_plain_pend hl (plain_tokens hs hf hp) hq
          (fun hxn => startsOrdinary_split hf (part_noshy h hp) (hx hxn))
      | number n t =>
        right
        have hx0 : x = [] := by
          by_cases hx0 : x = []
          · exact hx0
          · exact absurd (hx hx0) (by simp [HeadOrdinary])
        have hq0 : q.taken = [] := by
          rcases hq with ⟨h1, _⟩ | ⟨_, _, _, _, _, h2⟩
          · exact h1
          · rw [hx0] at h2; simp at h2
        obtain ⟨h1, h2, h3, h4⟩ := run_numText hw (spells_numText h hp) q hq0
        refine ⟨_, n, t, rfl, h1, ?_, h3, h2, h4⟩
        simp [hx0]
      | ended n t m =>
        left
        have hx0 : x = [] := by
          by_cases hx0 : x = []
          · exact hx0
          · exact absurd (hx hx0) (by simp [HeadOrdinary])
        have hq0 : q.taken = [] := by
          rcases hq with ⟨h1, _⟩ | ⟨_, _, _, _, _, h2⟩
          · exact h1
          · rw [hx0] at h2; simp at h2
        obtain ⟨h1, h2⟩ := run_ended hl h.nohi (spells_numText h hp.1) hp.2 hq0
        exact ⟨_, rfl, by rw [hx0, List.append_nil]; exact h1, h2⟩
    cases ps with
    | nil =>
      show ∃ tail, (finishQ ld (runQ ld (split L.code p.text) q)).flatten = q.out.flatten ++ x ++ p.result ++ tail ∧ _
      rcases hpart with ⟨r, hr, h1, h2⟩ | ⟨r, n, t, rfl, hr, h1, h2, h3, h4⟩
      · refine ⟨[], ?_, Or.inl rfl⟩
        rw [hr]; unfold finishQ
        rw [h2]; simp [nums, h1]
      · refine ⟨u!" ", ?_, Or.inr rfl⟩
        rw [hr]; unfold finishQ
        rw [List.flatten_append, h1, h3]; simp [Part.result]
    | cons p' ps =>
      obtain ⟨_, hfol, hrest⟩ := hps
      have hsp : spaced ((p :: p' :: ps).map Part.text) = p.text ++ 32 :: spaced ((p' :: ps).map Part.text) :=
        spaced_cons _ (by simp)
      have hsp' : spaced ((p :: p' :: ps).map Part.result) = p.result ++ 32 :: spaced ((p' :: ps).map Part.result) :=
        spaced_cons _ (by simp)
      have h32 : isSpace 32 = true := by decide
      rw [hsp, hsp', split_append_sep h.nohi _ _ (sepChar_of_space _ h32), runQ_append, runQ_cons]
      have hb32 : blank (norm [32]) = true := by decide +kernel
      rcases hpart with ⟨r, hr, h1, h2⟩ | ⟨r, n, t, rfl, hr, h1, h2, h3, h4⟩
      · rw [hr, step_blank_nil hb32 h2]
        obtain ⟨tail, ht, htl⟩ := ih hrest (by simp) ⟨r.out ++ [[32]], [], true⟩ [] (Or.inl ⟨rfl, rfl⟩) (by simp)
        refine ⟨tail, ?_, htl⟩
        rw [ht]; simp [h1]
      · rw [hr, step_blank_pend hb32 h2]
        obtain ⟨tail, ht, htl⟩ := ih hrest (by simp) ⟨r.out, r.taken, false⟩ (decDigits n ++ u!" ")
          (Or.inr ⟨n, h2, rfl, h3, h4, rfl⟩) (by
            intro _
            cases p' with
            | plain t' => exact hfol
            | number _ _ => exact absurd hfol (by simp [Part.mayFollow])
            | ended _ _ _ => exact absurd hfol (by simp [Part.mayFollow]))
        refine ⟨tail, ?_, htl⟩
        rw [ht, h1]; simp [Part.result]

theorem decDigits_solid (n : Nat) : decDigits n ≠ [] ∧ ∀ c ∈ decDigits n, isSpace c = false := by
  obtain ⟨h1, h2⟩ := decDigits_isDigit n
  exact ⟨h1, fun c hc => isSpace_ascii_digit (h2 c hc)⟩

theorem result_solid {L : Lang} {p : Part} (hp : p.OK L) :
    p.result ≠ [] ∧ (∀ c cs, p.result = c :: cs → isSpace c = false) ∧ (∀ c cs, p.result = cs ++ [c] → isSpace c = false) := by
  cases p with
  | plain t => exact ⟨hp.1, hp.2.1, hp.2.2.1⟩
  | number n t =>
    obtain ⟨h1, h2⟩ := decDigits_solid n
    refine ⟨h1, fun c cs he => h2 c ?_, fun c cs he => h2 c ?_⟩
    · change decDigits n = _ at he; rw [he]; simp
    · change decDigits n = _ at he; rw [he]; simp
  | ended n t m =>
    obtain ⟨h1, h2⟩ := decDigits_solid n
    refine ⟨by simp [Part.result], fun c cs he => ?_, fun c cs he => ?_⟩
    · change decDigits n ++ [m] = _ at he
      cases hd : decDigits n with
      | nil => exact absurd hd h1
      | cons d ds => rw [hd] at he; simp at he; exact h2 c (by rw [hd, he.1]; simp)
    · change decDigits n ++ [m] = _ at he
      have := List.append_inj_right' he rfl
      simp at this; subst this
      rcases hp.2 with h | h <;> rw [h] <;> decide

theorem spaced_solid {ts : List PyStr} (hne : ts ≠ []) (h : ∀ t ∈ ts, t ≠ [] ∧ (∀ c cs, t = c :: cs → isSpace c = false) ∧
    (∀ c cs, t = cs ++ [c] → isSpace c = false)) :
    (∀ c cs, spaced ts = c :: cs → isSpace c = false) ∧ (∀ c cs, spaced ts = cs ++ [c] → isSpace c = false) := by
  constructor
  · cases ts with
    | nil => exact absurd rfl hne
    | cons t ts =>
      intro c cs he
      obtain ⟨h1, h2, _⟩ := h t List.mem_cons_self
      cases ts with
      | nil => exact h2 c cs he
      | cons t' ts =>
        rw [spaced_cons t (by simp)] at he
        cases t with
        | nil => exact absurd rfl h1
        | cons d ds => simp at he; exact h2 c ds (by rw [he.1])
  · induction ts with
    | nil => exact absurd rfl hne
    | cons t ts ih =>
      intro c cs he
      by_cases hts : ts = []
      · subst hts; exact (h t List.mem_cons_self).2.2 c cs he
      · rw [spaced_cons t hts] at he
        have hsne : spaced ts ≠ [] := by
          cases ts with
          | nil => exact absurd rfl hts
          | cons a as =>
            have ha := (h a (by simp)).1
            cases as with
            | nil => exact ha
            | cons _ _ => rw [spaced_cons a (by simp)]; simp
        rcases List.eq_nil_or_concat (spaced ts) with h0 | ⟨y, d, h0⟩
        · exact absurd h0 hsne
        · have hd := ih hts (fun t' ht' => h t' (List.mem_cons_of_mem _ ht')) d y (by rw [h0, List.concat_eq_append])
          rw [h0, List.concat_eq_append] at he
          have : t ++ 32 :: (y ++ [d]) = (t ++ 32 :: y) ++ [d] := by simp
          rw [this] at he
          have := List.append_inj_right' he rfl
          simp at this; subst this; exact hd

theorem strip_trail {s tail : PyStr} (h1 : ∀ c cs, s = c :: cs → isSpace c = false) (h2 : ∀ c cs, s = cs ++ [c] → isSpace c = false)
    (hs : s ≠ []) (ht : ∀ c ∈ tail, isSpace c = true) : strip (s ++ tail) = s := by
  cases s with
  | nil => exact absurd rfl hs
  | cons c cs =>
    have hc := h1 c cs rfl
    unfold strip
    rw [List.cons_append, List.dropWhile_cons_of_neg (by rw [hc]; simp), ← List.cons_append]
    unfold rdropWhile
    rw [List.reverse_append, List.dropWhile_append_of_pos (by simpa using ht)]
    have := strip_id h1 h2
    unfold strip at this
    rw [List.dropWhile_cons_of_neg (by rw [hc]; simp)] at this
    exact this

theorem parse_sentence {L : Lang} (hL : L ∈ wordLanguages) (ps : List Part) (hps : Sentence L ps) :
    parse (spaced (ps.map Part.text)) (some L.code) = .ok (spaced (ps.map Part.result)) := by
  obtain ⟨ld, h, hs, hf⟩ := langOK hL
  by_cases hne : ps = []
  · subst hne
    have := supported_data hs
    rw [parse_eq this]
    have hsp : spaced (([] : List Part).map Part.text) = [] := rfl
    rw [hsp, tokenize_eq]
    have : pieces (mkLangData (file L.code)) (split L.code (noShy [])) = [[]] := by
      have : split L.code (noShy []) = [[]] := by rw [nonhi_split h.nohi]; rfl
      rw [this]; rfl
    rw [this]; rfl
  · rw [parse_eq h.style.lang, tokenize_eq, noShy_mem]
    · obtain ⟨tail, ht, htl⟩ := sentence_run h hs hf ps hps hne QState.init [] (Or.inl ⟨rfl, rfl⟩) (by simp)
      unfold pieces
      rw [ht]
      have hsol := spaced_solid (ts := ps.map Part.result) (by simpa using hne) (by
        intro t ht
        obtain ⟨p, hp, rfl⟩ := List.mem_map.mp ht
        exact result_solid (Sentence.ok hps p hp))
      have hnn : spaced (ps.map Part.result) ≠ [] := by
        cases ps with
        | nil => exact absurd rfl hne
        | cons p ps =>
          have := (result_solid (Sentence.ok hps p List.mem_cons_self)).1
          cases ps with
          | nil => exact this
          | cons _ _ => rw [List.map_cons, spaced_cons _ (by simp)]; simp
      simp only [QState.init, List.flatten_nil, List.nil_append]
      rw [strip_trail hsol.1 hsol.2 hnn]
      intro c hc
      rcases htl with rfl | rfl
      · cases hc
      · simp at hc; subst hc; decide
    · exact spaced_noshy (by
        intro t ht
        obtain ⟨p, hp, rfl⟩ := List.mem_map.mp ht
        exact part_noshy h (Sentence.ok hps p hp))

end NumberParser
