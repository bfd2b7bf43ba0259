import Verif.Proofs.Punctuation
import Verif.Props.Conversion

/-!
# C77: punctuation written directly against numbers and words

`Spec.Punctuation`, `Spec.LastIsNumber`, `Spec.EndsClosed`, `Spec.NumberPhrase`: Verif/Spec/Closed.lean.  Hindi is left out: there,
words are separated by white space only.
-/

set_option maxRecDepth 100000

namespace NumberParser.Props

open NumberParser Spec

theorem word_language {l : PyStr} (h : l ∈ [u!"en", u!"es", u!"ru", u!"uk"]) : l ∈ supported ∧ l ≠ u!"hi" := by
  simp only [List.mem_cons, List.not_mem_nil, or_false] at h
  rcases h with rfl | rfl | rfl | rfl <;> decide

/-- **C77**: punctuation directly after a number word gets a space in front of it; the text before it and the rest, with the
punctuation, are converted on their own. -/
theorem c77_after_number (l : PyStr) (hl : l ∈ [u!"en", u!"es", u!"ru", u!"uk"]) (a b : PyStr) (ta : List PyStr) (ht : Tokens l a ta)
    (hn : LastIsNumber l ta) (p : Nat) (hp : Punctuation l p) (hm : p ≠ 0x2e ∧ p ≠ 0x2c) (x y : PyStr) (hx : parse a (some l) = .ok x)
    (hy : parse (p :: b) (some l) = .ok y) : parse (a ++ p :: b) (some l) = .ok (x ++ u!" " ++ y) := by
  obtain ⟨h1, h2⟩ := word_language hl
  refine (parse_punct h1 h2 ht hp.1 hp.2.1 hp.2.2.2.1 hx hy).1 hn (punctuation_ordinary h1 hp) ?_
  rw [mark_char]
  rintro (e | e)
  · exact hm.1 e
  · exact hm.2 e

/-- **C77**: only a full stop or comma directly after a number word stays attached to the number. -/
theorem c77_mark (l : PyStr) (hl : l ∈ [u!"en", u!"es", u!"ru", u!"uk"]) (a b : PyStr) (ta : List PyStr) (ht : Tokens l a ta)
    (hn : LastIsNumber l ta) (p : Nat) (hp : p = 0x2e ∨ p = 0x2c) (x y : PyStr) (hx : parse a (some l) = .ok x)
    (hy : parse (p :: b) (some l) = .ok y) : parse (a ++ p :: b) (some l) = .ok (x ++ y) := by
  obtain ⟨h1, h2⟩ := word_language hl
  have hf : isWord p = false ∧ isSpace p = false ∧ p ≠ 0xad := by rcases hp with rfl | rfl <;> decide +kernel
  exact (parse_punct h1 h2 ht hf.1 hf.2.1 hf.2.2 hx hy).2.1 hn (mark_char.mpr hp)

/-- **C77**: punctuation directly after an ordinary word, a numeral, other punctuation or an ordinal stays where it is. -/
theorem c77_after_word (l : PyStr) (hl : l ∈ [u!"en", u!"es", u!"ru", u!"uk"]) (a b : PyStr) (ta : List PyStr) (ht : Tokens l a ta)
    (hn : EndsClosed l ta) (ha : SolidEnd a) (p : Nat) (hp : Punctuation l p) (x y : PyStr) (hx : parse a (some l) = .ok x)
    (hy : parse (p :: b) (some l) = .ok y) : parse (a ++ p :: b) (some l) = .ok (x ++ y) := by
  obtain ⟨h1, h2⟩ := word_language hl
  exact (parse_punct h1 h2 ht hp.1 hp.2.1 hp.2.2.2.1 hx hy).2.2 hn ha (Or.inr (Or.inl (punctuation_ordinary h1 hp)))

/-- **C77**: punctuation (and the English hyphen) directly in front of a text stays where it is. -/
theorem c77_in_front (l : PyStr) (hl : l ∈ [u!"en", u!"es", u!"ru", u!"uk"]) (p : Nat) (hp : Punctuation l p ∨ l = u!"en" ∧ p = 0x2d)
    (b y : PyStr) (hb : b = [] ∨ SolidStart b) (hy : parse b (some l) = .ok y) : parse (p :: b) (some l) = .ok (p :: y) := by
  obtain ⟨h1, h2⟩ := word_language hl
  rcases hp with hp | ⟨rfl, rfl⟩
  · exact parse_punct_front h1 h2 hp.1 hp.2.1 hp.2.2.2.1 (Or.inr (Or.inl (punctuation_ordinary h1 hp))) hb hy
  · refine parse_punct_front h1 h2 (by decide +kernel) (by decide +kernel) (by decide) (Or.inr (Or.inr ?_)) hb hy
    rw [skip_iff]; decide +kernel

/-- **C77**: a number between punctuation marks, for instance in brackets or quotation marks. -/
theorem c77_enclosed (l : PyStr) (hl : l ∈ [u!"en", u!"es", u!"ru", u!"uk"]) (m : PyStr) (w : PyStr) (ts : List PyStr) (ht : Tokens l m (w :: ts))
    (hw : Cardinal l w) (hlast : LastIsNumber l (w :: ts)) (hap : 0x27 ∉ m ∧ 0x2019 ∉ m) (hs : SolidStart m) (n : Nat)
    (hn : parseNumber m (some l) = .ok (some n)) (p q : Nat) (hp : Punctuation l p) (hq : Punctuation l q) :
    parse (p :: m ++ [q]) (some l) = .ok (p :: decDigits n ++ (if q = 0x2e ∨ q = 0x2c then [] else u!" ") ++ [q]) := by
  obtain ⟨h1, h2⟩ := word_language hl
  have hm := c18_parse_agrees l h1 m [] ts w ht (by simp) hw hap n hn
  have hq1 := c77_in_front l hl q (Or.inl hq) [] [] (Or.inl rfl) (by
    rw [parse_eq (supported_data h1)]
    obtain ⟨out, hout⟩ := converted_exists h1 [[]]
    have e := converted_empty h1 hout rfl
    rw [← (tokens_iff l [] [[]]).mp tokens_empty, converted_pieces h1 hout, e]; rfl)
  have h3 : parse (m ++ [q]) (some l) = .ok (decDigits n ++ (if q = 0x2e ∨ q = 0x2c then [] else u!" ") ++ [q]) := by
    split
    · rename_i h
      rw [List.append_nil]
      exact c77_mark l hl m [] _ ht hlast q h _ _ hm hq1
    · rename_i h
      exact c77_after_number l hl m [] _ ht hlast q hq ⟨fun e => h (Or.inl e), fun e => h (Or.inr e)⟩ _ _ hm hq1
  have := c77_in_front l hl p (Or.inl hp) (m ++ [q]) _ (Or.inr (by
    obtain ⟨c, z, e, hc⟩ := hs
    refine ⟨c, z ++ withoutSoftHyphens [q], ?_, hc⟩
    unfold withoutSoftHyphens at *
    rw [List.filter_append, e]; rfl)) h3
  simpa using this

/-- "(", "!", "¿" and "%" are punctuation; "twenty-two" meets the hypotheses on numbers. -/
example : Punctuation u!"en" 0x28 ∧ Punctuation u!"en" 0x21 ∧ Punctuation u!"es" 0xbf ∧ Punctuation u!"ru" 0x25 ∧
    Tokens u!"en" u!"twenty-two" [u!"twenty", u!"-", u!"two"] ∧ LastIsNumber u!"en" [u!"twenty", u!"-", u!"two"] ∧
    parseNumber u!"twenty-two" (some u!"en") = .ok (some 22) ∧ parse u!"(twenty-two)!" (some u!"en") = .ok u!"(22 )!" := by
  refine ⟨⟨by decide +kernel, by decide +kernel, by decide +kernel, by decide, by decide⟩,
    ⟨by decide +kernel, by decide +kernel, by decide +kernel, by decide, by decide⟩,
    ⟨by decide +kernel, by decide +kernel, by decide +kernel, by decide, by decide⟩,
    ⟨by decide +kernel, by decide +kernel, by decide +kernel, by decide, by decide⟩,
    (tokens_iff _ _ _).mpr (by decide +kernel),
    ⟨[u!"twenty", u!"-"], u!"two", rfl, (cardinal_iff (by decide) _).mpr (by decide +kernel)⟩, by decide +kernel, by decide +kernel⟩

/-- **C77**, refuted: punctuation does not in general stay attached to the number it follows, not even a closing bracket, a
quotation mark, a percent sign or an apostrophe. -/
theorem c77_refuted : parse u!"two!" (some u!"en") = .ok u!"2 !" ∧ parse u!"(two)" (some u!"en") = .ok u!"(2 )" ∧
    parse u!"\"two\"" (some u!"en") = .ok u!"\"2 \"" ∧ parse u!"twenty%" (some u!"en") = .ok u!"20 %" ∧
    parse u!"the two's" (some u!"en") = .ok u!"the 2 's" ∧ parse u!"second!" (some u!"en") = .ok u!"2!" ∧
    parse u!"two." (some u!"en") = .ok u!"2." := by decide +kernel

end NumberParser.Props
