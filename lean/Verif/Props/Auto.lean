import Verif.Proofs.Auto
import Verif.Props.Fractions

/-!
# C11: language detection does not change the value of a spelled number
-/

namespace NumberParser.Props
open NumberParser NumberParser.Spec

/-- **C11**: every rendering of a spelled number is read as that number without a language argument too;
the words may be inflected. -/
theorem c11_auto (L : Lang) (hL : L ∈ languages) (n : Nat) (hn : n < L.bound) (ws : List PyStr) (hw : L.Form n ws)
    (text : PyStr) (h : Rendering L.style ws text) : parseNumber text none = .ok (some n) := by
  obtain ⟨hk, hv⟩ := lang_form_value hL hn hw
  rw [auto_rendering hL h hk, parseNumber_rendering (styleOK hL).1 h hk, hv]

/-- **C11** for arbitrary number words: a text of number words of a language (in any order and inflection, spelled number
or not) gives the same result without a language argument as with it. -/
theorem c11_number_words (L : Lang) (hL : L ∈ languages) (ws : List PyStr) (hw : ∀ w ∈ ws, ∃ k v, Word L.code k v w) (text : PyStr)
    (h : Rendering L.style ws text) : parseNumber text none = parseNumber text (some L.code) := by
  apply auto_rendering hL h
  intro w hwm
  obtain ⟨k, v, hkv⟩ := hw w hwm
  exact (allNumbers_iff (styleOK hL).2 _).mpr ⟨k, v, hkv⟩

/-- **C11** for fractions. -/
theorem c11_fractions (L : Lang) (hL : L ∈ languages) (a b : Nat) (ha : a < L.bound) (hb : b < L.bound) (us vs : List PyStr)
    (hu : L.Form a us) (hv : L.Form b vs) (A B : PyStr) (hA : Rendering L.style us A) (hB : Rendering L.style vs B) (sep : PyStr) (hsep : sep ∈ separators) :
    parseFraction (A ++ u!" " ++ sep ++ u!" " ++ B) none = .ok (some (decDigits a ++ u!"/" ++ decDigits b)) := by
  rw [auto_fraction hL hA hB (lang_form_value hL ha hu).1 (lang_form_value hL hb hv).1 hsep]
  exact c07_fractions L hL a b ha hb us vs hu hv A B hA hB sep hsep

/-- Ukrainian words that are Russian words too: the text is taken for Russian, the value is the same. -/
example : Detected u!"триста сорок два" u!"ru" ∧ parseNumber u!"триста сорок два" none = .ok (some 342) := by
  refine ⟨(validTokens_iff _ _).mp (by decide +kernel), ?_⟩
  have e : ukText 342 = u!"триста сорок два" := by decide +kernel
  rw [← e]
  exact c11_auto ukrainian (by simp [languages]) 342 (by decide) _ (lang_form (by simp [languages]) (by decide)) _ (ukText_rendering (n := 342) (by decide))

/-- One Ukrainian word suffices. -/
example : parseNumber (ukText 352) none = .ok (some 352) :=
  c11_auto ukrainian (by simp [languages]) 352 (by decide) _ (lang_form (by simp [languages]) (by decide)) _ (ukText_rendering (n := 352) (by decide))

end NumberParser.Props
