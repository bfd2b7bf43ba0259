import Verif.Proofs.Arguments

/-!
# C90: arguments of other types

The other properties are about texts that are strings, and languages that are strings or `None`.  Here is what happens for other arguments.
-/

namespace NumberParser.Props
open NumberParser Spec

/-- For a string, and a string or `None` as language, the functions are those of the other properties. -/
theorem c90_strings (s : PyStr) (l : Option PyStr) :
    parseO (.str s) (languageObj l) = liftRes (parse s l) ∧ parseNumberO (.str s) (languageObj l) = liftRes (parseNumber s l) ∧
    parseOrdinalO (.str s) (languageObj l) = liftRes (parseOrdinal s l) ∧ parseFractionO (.str s) (languageObj l) = liftRes (parseFraction s l) :=
  ⟨parseO_str s l, parseNumberO_str s l, parseOrdinalO_str s l, parseFractionO_str s l⟩

/-- **C90**: a `language` that is neither a string nor `None` is treated in every call like the name of an unsupported language. -/
theorem c90_language (l : PyObj) (hl : l ≠ .none) (ht : NoText l) (name : PyStr) (hn : name ∉ supported) (x : PyObj) :
    parseO x l = parseO x (.str name) ∧ parseNumberO x l = parseNumberO x (.str name) ∧
    parseOrdinalO x l = parseOrdinalO x (.str name) ∧ parseFractionO x l = parseFractionO x (.str name) := by
  have h : BadLanguage l := ⟨hl, fun n _ => ht n⟩
  have h' : BadLanguage (.str name) := ⟨fun e => (nomatch e), fun n hn' e => hn (by injection e with e; exact e ▸ hn')⟩
  refine ⟨?_, parseNumberO_bad h h' x, ?_, parseFractionO_bad h h' x⟩
  · exact (begin_language h x _).trans (begin_language h' x _).symm
  · exact (begin_language h x _).trans (begin_language h' x _).symm

/-- **C90**: with a text that is no string, `parse` and `parse_ordinal` never return: they raise `ValueError` if the language is no supported one, and otherwise
`TypeError` for bytes and `AttributeError` for other objects. -/
theorem c90_parse (x : PyObj) (hx : NoText x) (l : PyObj) :
    (BadLanguage l → parseO x l = .error (.value .unsupportedLanguage) ∧ parseOrdinalO x l = .error (.value .unsupportedLanguage)) ∧
    (¬ BadLanguage l → parseO x l = .error (wrongType x) ∧ parseOrdinalO x l = .error (wrongType x)) :=
  ⟨fun h => ⟨begin_language h x _, begin_language h x _⟩, fun h => ⟨begin_text hx h _, begin_text hx h _⟩⟩

/-- **C90**: with a text that is no string, `parse_number` returns `None` for bytes of white space, and raises `AttributeError` otherwise, whatever the language. -/
theorem c90_number (x : PyObj) (hx : NoText x) (l : PyObj) :
    (BlankBytes x → parseNumberO x l = .ok none) ∧ (¬ BlankBytes x → parseNumberO x l = .error .attribute) := by
  cases x with
  | str s => exact absurd rfl (hx s)
  | none => exact ⟨fun ⟨b, e, _⟩ => (nomatch e), fun _ => rfl⟩
  | other => exact ⟨fun ⟨b, e, _⟩ => (nomatch e), fun _ => rfl⟩
  | bytes b =>
    rw [blankBytes_iff]
    have key : parseNumberO (.bytes b) l = if (rdropWhile isByteSpace (b.dropWhile isByteSpace)).isEmpty then .ok none else .error .attribute := by
      unfold parseNumberO
      simp only [PyObj.strip, bind, Except.bind, PyObj.truth, Bool.not_not]
      split <;> rfl
    rw [key]
    constructor
    · intro h; rw [h]; rfl
    · intro h
      rw [if_neg (fun e => h (List.isEmpty_iff.mp e))]

/-- **C90**: with a text that is no string, `parse_fraction` returns `None` for bytes of white space, raises `TypeError` for other bytes and `AttributeError` for
other objects, whatever the language. -/
theorem c90_fraction (x : PyObj) (hx : NoText x) (l : PyObj) :
    (BlankBytes x → parseFractionO x l = .ok none) ∧ (¬ BlankBytes x → parseFractionO x l = .error (wrongType x)) := by
  cases x with
  | str s => exact absurd rfl (hx s)
  | none => exact ⟨fun ⟨b, e, _⟩ => (nomatch e), fun _ => rfl⟩
  | other => exact ⟨fun ⟨b, e, _⟩ => (nomatch e), fun _ => rfl⟩
  | bytes b =>
    rw [blankBytes_iff]
    have key : parseFractionO (.bytes b) l = if (rdropWhile isByteSpace (b.dropWhile isByteSpace)).isEmpty then .ok none else .error .type := by
      unfold parseFractionO
      simp only [PyObj.strip, bind, Except.bind, PyObj.truth, Bool.not_not]
      split
      · rfl
      · have hr : resolveLanguageO (.bytes b) l = .error .type ∨ ∃ l', resolveLanguageO (.bytes b) l = .ok l' := by
          cases l with
          | none => exact .inl (validTokensO_bad hx)
          | _ => exact .inr ⟨_, rfl⟩
        rcases hr with hr | ⟨l', hr⟩
        · rw [hr]
        · rw [hr]; rfl
    rw [key]
    constructor
    · intro h; rw [h]; rfl
    · intro h
      rw [if_neg (fun e => h (List.isEmpty_iff.mp e))]; rfl

/-- **C90**: so no call returns a number or a text if the text argument is no string. -/
theorem c90_no_value (x : PyObj) (hx : NoText x) (l : PyObj) :
    (∀ t, parseO x l ≠ .ok t) ∧ (∀ n, parseNumberO x l ≠ .ok (some n)) ∧ (∀ r, parseOrdinalO x l ≠ .ok r) ∧ (∀ t, parseFractionO x l ≠ .ok (some t)) := by
  obtain ⟨h1, h2⟩ := c90_parse x hx l
  obtain ⟨h3, h4⟩ := c90_number x hx l
  obtain ⟨h5, h6⟩ := c90_fraction x hx l
  refine ⟨?_, ?_, ?_, ?_⟩
  · intro t e
    by_cases h : BadLanguage l
    · rw [(h1 h).1] at e; cases e
    · rw [(h2 h).1] at e; cases e
  · intro n e
    by_cases h : BlankBytes x
    · rw [h3 h] at e; cases e
    · rw [h4 h] at e; cases e
  · intro t e
    by_cases h : BadLanguage l
    · rw [(h1 h).2] at e; cases e
    · rw [(h2 h).2] at e; cases e
  · intro n e
    by_cases h : BlankBytes x
    · rw [h5 h] at e; cases e
    · rw [h6 h] at e; cases e

/-- Calls with arguments of each kind.  (`parse_number(b"5")` raises `AttributeError`, `parse_number(b"")` is `None`, `parse_number("12", 5)` is 12,
`parse_number("two", 5)` raises `ValueError`.) -/
theorem c90_example : parseNumberO (.bytes u!"5") .none = .error .attribute ∧ parseNumberO (.bytes u!" \n") (.str u!"en") = .ok none ∧
    parseNumberO (.str u!"12") .other = .ok (some 12) ∧ parseNumberO (.str u!"two") .other = .error (.value .unsupportedLanguage) ∧
    parseO .none .none = .error .attribute ∧ parseO (.bytes u!"two") (.str u!"en") = .error .type ∧ parseO .none (.bytes u!"en") = .error (.value .unsupportedLanguage) ∧
    parseFractionO (.str u!"one / two") (.bytes u!"en") = .error (.value .unsupportedLanguage) ∧ parseFractionO (.str u!"one") (.bytes u!"en") = .ok none ∧
    parseFractionO (.bytes u!"1/2") (.str u!"xx") = .error .type ∧ parseOrdinalO (.str u!"second") .none = .ok (some 2) := by decide +kernel

end NumberParser.Props
