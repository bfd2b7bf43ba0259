import Verif.Spec.Arguments
import Verif.Proofs.Basic

namespace NumberParser
open Spec

theorem liftRes_bind {α β : Type} (x : Res α) (f : α → Res β) : liftRes (x >>= f) = liftRes x >>= fun a => liftRes (f a) := by
  cases x <;> rfl

theorem languageDataO_str (l : PyStr) : languageDataO (.str l) = liftRes (languageData l) := by
  unfold languageDataO languageData
  show (if (!SUPPORTED_LANGUAGES.elem l) = true then _ else _) = _
  split
  · rfl
  · rename_i h
    show liftRes (if (!SUPPORTED_LANGUAGES.elem l) = true then _ else _) = _
    rw [if_neg h]

theorem tokenizeO_str (s l : PyStr) : tokenizeO (.str s) (.str l) = .ok (tokenize s l) := by
  unfold tokenizeO tokenize
  show (if RE_BUG_LANGUAGES.elem l = true then _ else _) = _
  dsimp only
  split <;> rfl

theorem countValidO_str (s l : PyStr) : countValidO (.str s) l = liftRes (countValid s l) := by
  unfold countValidO countValid
  rw [languageDataO_str, tokenizeO_str]
  cases languageData l <;> rfl

theorem mapM_lift {α β : Type} (f : α → Res β) (g : α → ARes β) (h : ∀ a, g a = liftRes (f a)) : ∀ l : List α, l.mapM g = liftRes (l.mapM f) := by
  intro l
  induction l with
  | nil => rfl
  | cons a l ih =>
    rw [List.mapM_cons, List.mapM_cons, liftRes_bind, h a]
    congr 1
    funext b
    rw [ih, liftRes_bind]
    rfl

theorem resolveLanguageO_str (s : PyStr) (l : Option PyStr) : resolveLanguageO (.str s) (languageObj l) = (liftRes (resolveLanguage s l)).map .str := by
  cases l with
  | some l => rfl
  | none =>
    show validTokensByLanguageO (.str s) = (liftRes (validTokensByLanguage s)).map .str
    unfold validTokensByLanguageO validTokensByLanguage
    rw [mapM_lift (fun l => do return (l, ← countValid s l)) _ (fun l => by rw [countValidO_str]; cases countValid s l <;> rfl)]
    cases SUPPORTED_LANGUAGES.mapM (fun l => do return (l, ← countValid s l) : PyStr → Res (PyStr × Nat)) with
    | error e => rfl
    | ok m =>
      simp only [liftRes, bind, Except.bind]
      split <;> rfl

theorem parseNumberO_str (s : PyStr) (l : Option PyStr) : parseNumberO (.str s) (languageObj l) = liftRes (parseNumber s l) := by
  unfold parseNumberO parseNumber
  rw [resolveLanguageO_str]
  have hb : (!(PyObj.str (strip s)).truth) = blank s := by simp [PyObj.truth, blank]
  simp only [PyObj.strip, bind, Except.bind, hb]
  cases blank s with
  | true => rfl
  | false =>
    simp only [PyObj.isnumeric, Bool.false_eq_true, if_false]
    cases isNumeric (strip s) with
    | true =>
      simp only [if_true, PyObj.int]
      cases pyInt s <;> rfl
    | false =>
      simp only [Bool.false_eq_true, if_false]
      cases resolveLanguage s l with
      | error e => rfl
      | ok l =>
        simp only [liftRes, Except.map, languageDataO_str]
        cases languageData l with
        | error e => rfl
        | ok ld => simp only [PyObj.replace, tokenizeO_str]; rfl

theorem parseNumberO_name (s l : PyStr) : parseNumberO (.str s) (.str l) = liftRes (parseNumber s (some l)) := parseNumberO_str s (some l)

theorem parseOrdinalO_str (s : PyStr) (l : Option PyStr) : parseOrdinalO (.str s) (languageObj l) = liftRes (parseOrdinal s l) := by
  unfold parseOrdinalO parseOrdinal
  rw [resolveLanguageO_str]
  cases resolveLanguage s l with
  | error e => rfl
  | ok l =>
    simp only [liftRes, Except.map, bind, Except.bind, languageDataO_str]
    cases languageData l with
    | error e => rfl
    | ok ld => simp only [tokenizeO_str, parseNumberO_name]; rfl

theorem fractionLoopO_str (s l : PyStr) (seps : List PyStr) : fractionLoopO (.str s) (.str l) seps = liftRes (fractionLoop s l seps) := by
  induction seps with
  | nil => rfl
  | cons sep seps ih =>
    rw [fractionLoopO, fractionLoop]
    simp only [PyObj.find, bind, Except.bind]
    cases find sep s with
    | none => exact ih
    | some pos =>
      simp only [PyObj.take, PyObj.drop, parseNumberO_name]
      cases parseNumber (s.take pos) (some l) with
      | error e => rfl
      | ok m =>
        simp only [liftRes]
        cases parseNumber (s.drop (pos + sep.length)) (some l) with
        | error e => rfl
        | ok n =>
          cases m with
          | none => rfl
          | some m => cases n <;> rfl

theorem parseFractionO_str (s : PyStr) (l : Option PyStr) : parseFractionO (.str s) (languageObj l) = liftRes (parseFraction s l) := by
  unfold parseFractionO parseFraction
  rw [resolveLanguageO_str]
  have hb : (!(PyObj.str (strip s)).truth) = blank s := by simp [PyObj.truth, blank]
  simp only [PyObj.strip, bind, Except.bind, hb]
  cases blank s with
  | true => rfl
  | false =>
    simp only [Bool.false_eq_true, if_false]
    cases resolveLanguage s l with
    | error e => rfl
    | ok l => exact fractionLoopO_str s l _

theorem parseO_str (s : PyStr) (l : Option PyStr) : parseO (.str s) (languageObj l) = liftRes (parse s l) := by
  unfold parseO parse
  rw [resolveLanguageO_str]
  cases resolveLanguage s l with
  | error e => rfl
  | ok l =>
    simp only [liftRes, Except.map, bind, Except.bind, languageDataO_str]
    cases languageData l with
    | error e => rfl
    | ok ld => simp only [tokenizeO_str]

/-! ### Languages that are none -/

theorem languageDataO_bad {l : PyObj} (h : BadLanguage l) : languageDataO l = .error (.value .unsupportedLanguage) := by
  unfold languageDataO
  have : l.elem SUPPORTED_LANGUAGES = false := by
    cases l with
    | str s =>
      show SUPPORTED_LANGUAGES.elem s = false
      cases he : SUPPORTED_LANGUAGES.elem s with
      | false => rfl
      | true =>
        have hm : s ∈ SUPPORTED_LANGUAGES := List.elem_iff.mp he
        exact absurd rfl (h.2 s hm)
    | _ => rfl
  rw [this]; rfl

theorem resolveLanguageO_bad {l : PyObj} (h : BadLanguage l) (x : PyObj) : resolveLanguageO x l = .ok l := by
  cases l with
  | none => exact absurd rfl h.1
  | _ => rfl

theorem parseNumberO_bad {l l' : PyObj} (h : BadLanguage l) (h' : BadLanguage l') (x : PyObj) : parseNumberO x l = parseNumberO x l' := by
  unfold parseNumberO
  simp only [resolveLanguageO_bad h, resolveLanguageO_bad h', bind, Except.bind, languageDataO_bad h, languageDataO_bad h']

theorem fractionLoopO_bad {l l' : PyObj} (h : BadLanguage l) (h' : BadLanguage l') (x : PyObj) (seps : List PyStr) :
    fractionLoopO x l seps = fractionLoopO x l' seps := by
  induction seps with
  | nil => rfl
  | cons sep seps ih =>
    rw [fractionLoopO, fractionLoopO, ih]
    simp only [fun y => parseNumberO_bad h h' y]

theorem parseFractionO_bad {l l' : PyObj} (h : BadLanguage l) (h' : BadLanguage l') (x : PyObj) : parseFractionO x l = parseFractionO x l' := by
  unfold parseFractionO
  simp only [resolveLanguageO_bad h, resolveLanguageO_bad h', bind, Except.bind, fractionLoopO_bad h h']

/-! ### Texts that are none -/

theorem tokenizeO_bad {x : PyObj} (h : NoText x) (l : PyObj) : tokenizeO x l = .error (wrongType x) := by
  cases x with
  | str s => exact absurd rfl (h s)
  | _ => rfl

theorem good_language {l : PyObj} (h : ¬ BadLanguage l) : l = .none ∨ ∃ name ∈ supported, l = .str name := by
  cases l with
  | none => exact .inl rfl
  | str s =>
    by_cases hs : s ∈ supported
    · exact .inr ⟨s, hs, rfl⟩
    · exact absurd ⟨(by intro e; cases e), fun n hn e => hs (by injection e with e; exact e ▸ hn)⟩ h
  | bytes b => exact absurd ⟨(by intro e; cases e), fun n hn e => (by cases e)⟩ h
  | other => exact absurd ⟨(by intro e; cases e), fun n hn e => (by cases e)⟩ h

theorem languageDataO_good {name : PyStr} (h : name ∈ supported) : ∃ ld, languageDataO (.str name) = .ok ld := by
  rw [languageDataO_str]
  simp only [supported, List.mem_cons, List.not_mem_nil, or_false] at h
  rcases h with rfl | rfl | rfl | rfl | rfl <;> exact ⟨_, rfl⟩

theorem validTokensO_bad {x : PyObj} (h : NoText x) : validTokensByLanguageO x = .error (wrongType x) := by
  obtain ⟨ld, hld⟩ := languageDataO_good (name := u!"en") (by decide)
  have hc : countValidO x u!"en" = .error (wrongType x) := by
    unfold countValidO
    rw [hld]
    simp only [bind, Except.bind, tokenizeO_bad h]
  unfold validTokensByLanguageO
  have e : SUPPORTED_LANGUAGES = u!"en" :: [u!"es", u!"hi", u!"ru", u!"uk"] := rfl
  rw [e, List.mapM_cons, hc]
  rfl

/-- The common beginning of `parse` and `parse_ordinal` -/
theorem begin_language {α : Type} {l : PyObj} (h : BadLanguage l) (x : PyObj) (k : LangData → PyObj → List PyStr → ARes α) :
    (resolveLanguageO x l >>= fun l => languageDataO l >>= fun ld => tokenizeO x l >>= fun ts => k ld l ts) =
      .error (.value .unsupportedLanguage) := by
  simp only [resolveLanguageO_bad h, bind, Except.bind, languageDataO_bad h]

theorem begin_text {α : Type} {x l : PyObj} (h : NoText x) (hl : ¬ BadLanguage l) (k : LangData → PyObj → List PyStr → ARes α) :
    (resolveLanguageO x l >>= fun l => languageDataO l >>= fun ld => tokenizeO x l >>= fun ts => k ld l ts) = .error (wrongType x) := by
  rcases good_language hl with rfl | ⟨name, hn, rfl⟩
  · show (validTokensByLanguageO x >>= _) = _
    rw [validTokensO_bad h]; rfl
  · obtain ⟨ld, hld⟩ := languageDataO_good hn
    have : resolveLanguageO x (.str name) = .ok (.str name) := rfl
    simp only [this, bind, Except.bind, hld, tokenizeO_bad h]

theorem dropWhile_nil_iff' {p : Nat → Bool} {l : List Nat} : l.dropWhile p = [] ↔ ∀ c ∈ l, p c = true := by
  induction l with
  | nil => exact ⟨fun _ _ h => (nomatch h), fun _ => rfl⟩
  | cons a l ih =>
    rw [List.dropWhile_cons]
    cases ha : p a with
    | true =>
      rw [if_pos rfl, ih]
      constructor
      · intro h c hc
        rcases List.mem_cons.mp hc with rfl | hc
        · exact ha
        · exact h c hc
      · exact fun h c hc => h c (List.mem_cons_of_mem _ hc)
    | false =>
      rw [if_neg (by decide)]
      constructor
      · intro h; cases h
      · intro h; have := h a List.mem_cons_self; rw [ha] at this; cases this

theorem byteStrip_nil (b : List Nat) : rdropWhile isByteSpace (b.dropWhile isByteSpace) = [] ↔ ∀ c ∈ b, isByteSpace c = true := by
  constructor
  · intro h
    have h1 : b.dropWhile isByteSpace = [] := by
      cases hb : b.dropWhile isByteSpace with
      | nil => rfl
      | cons c r =>
        rw [hb] at h
        exfalso
        have hc : isByteSpace c = false := by
          have := List.head?_dropWhile_not isByteSpace b
          rw [hb] at this
          simpa using this
        unfold rdropWhile at h
        have h2 : (c :: r).reverse.dropWhile isByteSpace = [] := List.reverse_eq_nil_iff.mp h
        rw [dropWhile_nil_iff'] at h2
        have := h2 c (by simp)
        rw [hc] at this; cases this
    rw [dropWhile_nil_iff'] at h1
    exact h1
  · intro h
    rw [dropWhile_nil_iff'.mpr h]; rfl

theorem isByteSpace_iff (c : Nat) : isByteSpace c = true ↔ c = 32 ∨ (9 ≤ c ∧ c ≤ 13) := by
  unfold isByteSpace; simp

theorem blankBytes_iff (b : List Nat) : BlankBytes (.bytes b) ↔ rdropWhile isByteSpace (b.dropWhile isByteSpace) = [] := by
  rw [byteStrip_nil]
  constructor
  · rintro ⟨b', e, h⟩ c hc
    injection e with e
    subst e
    exact (isByteSpace_iff c).mpr (h c hc)
  · intro h
    exact ⟨b, rfl, fun c hc => (isByteSpace_iff c).mp (h c hc)⟩

end NumberParser
