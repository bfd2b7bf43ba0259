import Verif.Props.Sentences
import Verif.Props.Auto
import Verif.Proofs.Declension
import Verif.Spec.Words

/-!
# Declined numbers (C79)

Russian numbers in all six cases and genders, Spanish numbers in both genders and before a noun, written out in any way that
`Rendering` allows, have the value of the number.
-/

set_option maxRecDepth 100000

namespace NumberParser.Props
open NumberParser Spec

/-- **C79**: every rendering of the words of a number, each possibly replaced by another listed form of the same class and
value, is parsed to the number, in all five languages. -/
theorem c79_forms (L : Lang) (hL : L ∈ languages) (n : Nat) (hn : n < L.bound) (ws : List PyStr) (hw : L.Form n ws)
    (text : PyStr) (h : Rendering L.style ws text) : parseNumber text (some L.code) = .ok (some n) := by
  obtain ⟨hk, hv⟩ := lang_form_value hL hn hw
  rw [parseNumber_rendering (styleOK hL).1 h hk, hv]

/-- **C79**: the declined Russian and Spanish numbers are such forms, so that what is said about forms of numbers in fractions (C07),
lists (C10), without a language (C11), in sentences (C45) and one after the other (C75) holds for them. -/
theorem c79_declined (n : Nat) : (∀ c g animate, 0 < n → n < 10 ^ 24 → russian.Form n (ruWordsIn c g animate n)) ∧
    (∀ e e' fem, n < 10 ^ 60 → spanish.Form n (esWordsIn e e' fem n)) :=
  ⟨fun c g animate h0 hn => ruin_form c g animate (by omega) hn, fun e e' fem hn => esin_form e e' fem hn⟩

/-- **C79**: every rendering of a Russian number in any case, counting things of any gender, is parsed to the number. -/
theorem c79_russian (c : Case) (g : Gender) (animate : Bool) (n : Nat) (hn : n < 10 ^ 24) (text : PyStr)
    (h : Rendering Spec.ru (ruWordsIn c g animate n) text) : parseNumber text (some u!"ru") = .ok (some n) := by
  have := parseNumber_rendering style_ru h (AllNum.mem wf_ru (ruin_words hn).2)
  rw [this]; exact congrArg _ (ruin_words hn).1

/-- The usual text, with spaces between the words -/
theorem c79_russian_text (c : Case) (g : Gender) (animate : Bool) (n : Nat) (h0 : 0 < n) (hn : n < 10 ^ 24) :
    parseNumber (phrase (fun _ _ => u!" ") (ruWordsIn c g animate n)) (some u!"ru") = .ok (some n) :=
  c79_russian c g animate n hn _
    (phrase_rendering (fun _ _ => gap_space (by decide)) (ruin_chars c g animate n) (ruin_ne_nil (by omega) hn))

example : phrase (fun _ _ => u!" ") (ruWordsIn .ins .masc false 2021584) =
      u!"двумя миллионами двадцатью одной тысячей пятьюстами восемьюдесятью четырьмя" ∧
    phrase (fun _ _ => u!" ") (ruWordsIn .gen .fem true 3001) = u!"трех тысяч одной" ∧
    phrase (fun _ _ => u!" ") (ruWordsIn .acc .fem true 1000002) = u!"один миллион двух" ∧
    phrase (fun _ _ => u!" ") (ruWordsIn .prep .masc false 45112) = u!"сорока пяти тысячах ста двенадцати" := by decide +kernel

/-- Capitals and ё -/
example : Rendering Spec.ru (ruWordsIn .gen .masc false 23) u!"Двадцати  трёх" := by
  refine ⟨[], _, by simp, ?_, rfl⟩
  exact Text.cons (v := u!"Двадцати") (g := u!"  ") ⟨by decide +kernel, by decide +kernel⟩ (Gap.sep (by decide) (by decide))
    (Text.last (v := u!"трёх") (trail := []) ⟨by decide +kernel, by decide +kernel⟩ (by simp))

/-- **C79**: every rendering of a Spanish number in the masculine or feminine, standing alone or before a noun. -/
theorem c79_spanish (e e' : Ending) (fem : Bool) (n : Nat) (hn : n < 10 ^ 60) (text : PyStr)
    (h : Rendering Spec.es (esWordsIn e e' fem n) text) : parseNumber text (some u!"es") = .ok (some n) := by
  have := parseNumber_rendering style_es h (AllNum.mem wf_es (esin_words hn).2)
  rw [this]; exact congrArg _ (esin_words hn).1

theorem c79_spanish_text (e e' : Ending) (fem : Bool) (n : Nat) (hn : n < 10 ^ 60) :
    parseNumber (phrase esGapIn (esWordsIn e e' fem n)) (some u!"es") = .ok (some n) :=
  c79_spanish e e' fem n hn _ (phrase_rendering esGapIn_ok (esin_chars e e' fem n) (esin_ne_nil hn))

example : phrase esGapIn (esWordsIn .feminine .beforeNoun true 1231521) =
      u!"un millón doscientas treinta y un mil quinientas veintiuna" ∧
    phrase esGapIn (esWordsIn .beforeNoun .beforeNoun false 41) = u!"cuarenta y un" ∧
    phrase esGapIn (esWordsIn .feminine .feminine true 200031) = u!"doscientas mil treinta y una" := by decide +kernel

/-- In a sentence -/
theorem c79_spells (c : Case) (g : Gender) (animate : Bool) (n : Nat) (h0 : 0 < n) (hn : n < 10 ^ 24) :
    Spells russian n (phrase (fun _ _ => u!" ") (ruWordsIn c g animate n)) :=
  ⟨hn, ⟨_, ruin_form c g animate (by omega) hn,
      phrase_text (fun _ _ => gap_space (by decide)) (ruin_chars c g animate n) (ruin_ne_nil (by omega) hn)⟩,
    phrase_ends (p := isWord) (fun _ => word_not_space) (ruin_chars c g animate n) (allNum_ne wf_ru (ruin_words hn).2)⟩

/-- "from 100 to 200 ..." in the genitive, for all pairs of numbers: a list -/
example (m n : Nat) (hm : 0 < m) (hn : 0 < n) (hm' : m < 10 ^ 24) (hn' : n < 10 ^ 24) :
    parse (phrase (fun _ _ => u!" ") (ruWordsIn .gen .masc false m) ++ u!", " ++
        phrase (fun _ _ => u!" ") (ruWordsIn .dat .fem true n)) (some u!"ru") =
      .ok (decDigits m ++ u!", " ++ decDigits n) :=
  c10_lists russian (by simp [wordLanguages]) 0x2c (Or.inl rfl) [(m, _), (n, _)] (by
    intro x hx
    simp only [List.mem_cons, List.not_mem_nil, or_false] at hx
    rcases hx with rfl | rfl
    · exact c79_spells .gen .masc false m hm hm'
    · exact c79_spells .dat .fem true n hn hn')

/-- A form of the number word: the last word of a declined number, possibly a scale word after 1, 2 or 5. -/
def RuForm (v : Nat) (w : PyStr) : Prop :=
  ∃ c g animate m u, 1 ≤ m ∧ ruWordsIn c g animate (m * v) = u ++ [w]

def EsForm (v : Nat) (w : PyStr) : Prop :=
  ∃ e e' fem m u, 1 ≤ m ∧ esWordsIn e e' fem (m * v) = u ++ [w]

theorem getLast_split {ws : List PyStr} {w : PyStr} (h : ws.getLast? = some w) : ∃ u, ws = u ++ [w] :=
  List.getLast?_eq_some_iff.mp h

/-- The search used below -/
def ruFind (v : Nat) (w : PyStr) : Bool :=
  [1, 2, 5].any (fun m => [Case.nom, .gen, .dat, .acc, .ins, .prep].any (fun c =>
    (if v = 1 then [Gender.masc, .fem, .neut, .plural] else [Gender.masc, .fem]).any (fun g =>
      (ruWordsIn c g false (m * v)).getLast? == some w)))

def esFind (v : Nat) (w : PyStr) : Bool :=
  [1, 2].any (fun m => [Ending.alone, .beforeNoun, .feminine].any (fun e => [false, true].any (fun fem =>
      (esWordsIn e .beforeNoun fem (m * v)).getLast? == some w)))

theorem ruFind_form {v : Nat} {w : PyStr} (h : ruFind v w = true) : RuForm v w := by
  obtain ⟨m, hm, h⟩ := List.any_eq_true.mp h
  obtain ⟨c, _, h⟩ := List.any_eq_true.mp h
  obtain ⟨g, _, h⟩ := List.any_eq_true.mp h
  obtain ⟨u, hu⟩ := getLast_split (by simpa using h)
  exact ⟨c, g, false, m, u, by simp at hm; omega, hu⟩

theorem esFind_form {v : Nat} {w : PyStr} (h : esFind v w = true) : EsForm v w := by
  obtain ⟨m, hm, h⟩ := List.any_eq_true.mp h
  obtain ⟨e, _, h⟩ := List.any_eq_true.mp h
  obtain ⟨f, _, h⟩ := List.any_eq_true.mp h
  obtain ⟨u, hu⟩ := getLast_split (by simpa using h)
  exact ⟨e, .beforeNoun, f, m, u, by simp at hm; omega, hu⟩

/-- **C79**: conversely every Russian table word except "двасти" and the words for zero is a form of its number. -/
theorem c79_russian_vocabulary (k : Class) (w : PyStr) (v : Nat) (h : (w, v) ∈ entries u!"ru" k) (h0 : v ≠ 0)
    (hw : w ≠ u!"двасти") : RuForm v w := by
  have hc : ∀ k, (entries u!"ru" k).all (fun e => e.2 == 0 || e.1 == u!"двасти" || ruFind e.2 e.1) = true := by
    intro k; cases k <;> decide +kernel
  have := List.all_eq_true.mp (hc k) _ h
  simp only [Bool.or_eq_true, beq_iff_eq] at this
  rcases this with (h | h) | h
  · exact absurd h h0
  · exact absurd h hw
  · exact ruFind_form h

/-- **C79**: every Spanish table word for a number below 10^60 except "millardo" is a form of its number
("ciento" is the form of 100 before smaller numbers). -/
theorem c79_spanish_vocabulary (k : Class) (w : PyStr) (v : Nat) (h : (w, v) ∈ entries u!"es" k) (hv : v < 10 ^ 60)
    (hw : w ≠ u!"millardo") (hc : w ≠ u!"ciento") : EsForm v w := by
  have hall : ∀ k, (entries u!"es" k).all (fun e => decide (10 ^ 60 ≤ e.2) || e.1 == u!"millardo" || e.1 == u!"ciento" || esFind e.2 e.1) = true := by
    intro k; cases k <;> decide +kernel
  have := List.all_eq_true.mp (hall k) _ h
  simp only [Bool.or_eq_true, beq_iff_eq, decide_eq_true_eq] at this
  rcases this with ((h | h) | h) | h
  · exact absurd hv (Nat.not_lt.mpr h)
  · exact absurd h hw
  · exact absurd h hc
  · exact esFind_form h

/-- Gaps: "ноль" and "нуль" are both declined in Russian, but the data has only some forms of each; the nominative plural of
the scale words and the forms "тысячью", "одною" are missing; most Ukrainian forms are missing. -/
theorem c79_refuted :
    parseNumber u!"ноля" (some u!"ru") = .ok (some 0) ∧ parseNumber u!"нуля" (some u!"ru") = .ok none ∧
    parseNumber u!"нуль" (some u!"ru") = .ok none ∧ parseNumber u!"нолем" (some u!"ru") = .ok none ∧
    parseNumber u!"миллионы" (some u!"ru") = .ok none ∧ parseNumber u!"тысячью" (some u!"ru") = .ok none ∧
    parseNumber u!"одною" (some u!"ru") = .ok none ∧
    parseNumber u!"двадцяти" (some u!"uk") = .ok none ∧ parseNumber u!"двадцять" (some u!"uk") = .ok (some 20) := by
  decide +kernel

end NumberParser.Props
