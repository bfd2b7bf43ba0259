import Verif.Proofs.Hundreds
import Verif.Proofs.Phrase
import Verif.Proofs.ApartJoin

/-!
# C76: counted hundreds

"nineteen hundred forty-five", "twelve hundred million": the hundreds are counted instead of being carried over into the
thousands (English and Hindi).  The words are given in Verif/Spec/Hundreds.lean.
-/

namespace NumberParser.Props
open NumberParser NumberParser.Spec

/-- **C76** (English): groups below 10000 with counted hundreds, each in front of a scale word that is not smaller, the
scale words getting smaller, and a last group below 10000: `parse_number` returns the value. -/
theorem c76_english (groups : List (Nat × Nat)) (low : Nat) (h : CountedGroups (fun k => 1000 ^ (k + 1)) 7 groups low) (text : PyStr)
    (ht : Rendering Spec.en (countedWords enCounted (nth enScale) groups low) text) :
    parseNumber text (some u!"en") = .ok (some (countedValue (fun k => 1000 ^ (k + 1)) groups low)) := by
  obtain ⟨h1, h2⟩ := counted_value wf_en (scaleWord := nth enScale) (counted := enCounted) (fun v hv => en_counted hv)
    (fun k hk => by rw [en_scale hk, Nat.pow_succ, Nat.mul_comm])
    (fun k => by
      have : 1000 ^ 1 ≤ 1000 ^ (k + 1) := Nat.pow_le_pow_right (by omega) (by omega)
      show 100 < 1000 ^ (k + 1)
      omega)
    (fun j k hjk _ => Nat.pow_lt_pow_right (by omega) (by omega)) h
  rw [parseNumber_rendering style_en ht (AllNum.mem wf_en h2)]
  exact congrArg _ h1

/-- **C76** (Hindi). -/
theorem c76_hindi (groups : List (Nat × Nat)) (low : Nat) (h : CountedGroups (fun k => 1000 * 100 ^ k) 5 groups low) (text : PyStr)
    (ht : Rendering Spec.hi (countedWords hiCounted (nth hiScale) groups low) text) :
    parseNumber text (some u!"hi") = .ok (some (countedValue (fun k => 1000 * 100 ^ k) groups low)) := by
  obtain ⟨h1, h2⟩ := counted_value wf_hi (scaleWord := nth hiScale) (counted := hiCounted) (fun v hv => hi_counted hv)
    (fun k hk => hi_scale hk)
    (fun k => by
      have : 1 ≤ 100 ^ k := Nat.pow_pos (by omega)
      show 100 < 1000 * 100 ^ k
      omega)
    (fun j k hjk _ => Nat.mul_lt_mul_of_pos_left (Nat.pow_lt_pow_right (by omega) hjk) (by omega)) h
  rw [parseNumber_rendering style_hi ht (AllNum.mem wf_hi h2)]
  exact congrArg _ h1

/-- **C76**, the limit: a count of more than 1000 in front of "thousand" is not read as one number. -/
theorem c76_thousand (v : Nat) (hv : 1000 < v) (h4 : v < 10000) (text : PyStr) (ht : Rendering Spec.en (enCounted v ++ [u!"thousand"]) text) :
    parseNumber text (some u!"en") = .ok none := by
  obtain ⟨h1, h2⟩ := en_counted h4
  have hk : wordKinds ldEn [u!"thousand"] = [.big 1000] := congrArg (fun k => [k]) (en_scale (k := 0) (by omega))
  have ha : AllNum ldEn (enCounted v ++ [u!"thousand"]) := by
    refine AllNum.append h2 ?_
    intro k hk'
    rw [hk] at hk'
    simp only [List.mem_singleton] at hk'
    rw [hk']; simp
  rw [parseNumber_rendering style_en ht (AllNum.mem wf_en ha)]
  have : kindsValue 100 (wordKinds ldEn (enCounted v ++ [u!"thousand"])) = none := by
    obtain ⟨r', e1, e2, e3, e4⟩ := h1 RState.init rfl (Or.inl rfl) (Or.inl ⟨rfl, rfl⟩)
    have hne : wordKinds ldEn (enCounted v) ≠ [] := by
      unfold enCounted
      rw [if_neg (by omega)]
      simp [wordKinds]
    have hp := runR_prev_some e1 hne
    obtain ⟨q, hq⟩ := Option.ne_none_iff_exists'.mp hp
    unfold kindsValue
    rw [wordKinds_append, hk, runR_append, e1]
    have ht0 : r'.total = 0 := e2
    have : stepR 100 r' (.big 1000) = none := by
      unfold stepR
      have hl : largeK (.big 1000) r'.total r'.grp = none := by
        simp only [largeK]; rw [if_neg (by omega)]
      have hv' : validK (.big 1000) r'.prev r'.pow r'.total r'.grp = false := by
        rw [hq]
        simp only [validK]
        rw [if_pos (by omega)]
      simp [hl, hv']
    simp [runR, this]
  exact congrArg _ this

/-- "nineteen hundred forty-five million TWELVE hundred" = 1945·10^6 + 1200. -/
example : parseNumber u!"nineteen hundred forty-five million TWELVE hundred" (some u!"en") = .ok (some 1945001200) := by
  have w : ∀ w v : PyStr, v.all isWord = true → form v = form w → Writes Spec.en w v :=
    fun w v h1 h2 => ⟨List.all_eq_true.mp h1, h2⟩
  have g : Gap Spec.en u!" " := Gap.sep (by decide) (by decide)
  have := c76_english [(1, 1945)] 1200 ⟨by simp, by simp, by omega, by simp⟩ u!"nineteen hundred forty-five million TWELVE hundred" (by
    rw [show countedWords enCounted (nth enScale) [(1, 1945)] 1200 =
      [u!"nineteen", u!"hundred", u!"forty", u!"five", u!"million", u!"twelve", u!"hundred"] by decide +kernel]
    refine ⟨[], _, by simp, ?_, rfl⟩
    exact Text.cons (v := u!"nineteen") (w _ _ (by decide +kernel) (by decide +kernel)) g
      (Text.cons (v := u!"hundred") (w _ _ (by decide +kernel) (by decide +kernel)) g
      (Text.cons (v := u!"forty") (w _ _ (by decide +kernel) (by decide +kernel)) (Gap.sep (g := u!"-") (by decide) (by decide))
      (Text.cons (v := u!"five") (w _ _ (by decide +kernel) (by decide +kernel)) g
      (Text.cons (v := u!"million") (w _ _ (by decide +kernel) (by decide +kernel)) g
      (Text.cons (v := u!"TWELVE") (w _ _ (by decide +kernel) (by decide +kernel)) g
      (Text.last (v := u!"hundred") (trail := []) (w _ _ (by decide +kernel) (by decide +kernel)) (by decide))))))))
  exact this

/-- "ten hundred thousand" is still one number: the count may equal the scale word. -/
example : CountedGroups (fun k => 1000 ^ (k + 1)) 7 [(0, 1000)] 0 ∧ countedWords enCounted (nth enScale) [(0, 1000)] 0 = [u!"ten", u!"hundred", u!"thousand"] ∧
    countedValue (fun k => 1000 ^ (k + 1)) [(0, 1000)] 0 = 10 ^ 6 :=
  ⟨⟨by simp, by simp, by omega, by simp⟩, by decide +kernel, by decide +kernel⟩

example : CountedGroups (fun k => 1000 * 100 ^ k) 5 [(4, 1234), (0, 110)] 1945 ∧ hiCounted 1945 = [u!"उन्नीस", u!"सौ", u!"पैंतालीस"] ∧
    countedValue (fun k => 1000 * 100 ^ k) [(4, 1234), (0, 110)] 1945 = 123400000111945 :=
  ⟨⟨by simp, by simp, by omega, by simp⟩, by decide +kernel, by decide +kernel⟩

/-- Refuted: counted hundreds in front of every scale word.  "nineteen hundred thousand" is read as two numbers. -/
theorem c76_refuted : ¬ ∀ v k : Nat, 1 ≤ v → v < 10000 → k < 7 → ∀ text, Rendering Spec.en (enCounted v ++ [nth enScale k]) text →
    parseNumber text (some u!"en") = .ok (some (v * 1000 ^ (k + 1))) := by
  intro h
  have w : ∀ w v : PyStr, v.all isWord = true → form v = form w → Writes Spec.en w v :=
    fun w v h1 h2 => ⟨List.all_eq_true.mp h1, h2⟩
  have g : Gap Spec.en u!" " := Gap.sep (by decide) (by decide)
  have hr : Rendering Spec.en (enCounted 1900 ++ [u!"thousand"]) u!"nineteen hundred thousand" := by
    rw [show enCounted 1900 ++ [u!"thousand"] = [u!"nineteen", u!"hundred", u!"thousand"] by decide +kernel]
    refine ⟨[], _, by simp, ?_, rfl⟩
    exact Text.cons (v := u!"nineteen") (w _ _ (by decide +kernel) (by decide +kernel)) g
      (Text.cons (v := u!"hundred") (w _ _ (by decide +kernel) (by decide +kernel)) g
      (Text.last (v := u!"thousand") (trail := []) (w _ _ (by decide +kernel) (by decide +kernel)) (by decide)))
  have h1 := h 1900 0 (by omega) (by omega) (by omega) _ hr
  rw [c76_thousand 1900 (by omega) (by omega) _ hr] at h1
  simp at h1

set_option maxRecDepth 100000 in
example : parse u!"nineteen hundred thousand" (some u!"en") = .ok u!"1900 1000" := by decide +kernel

end NumberParser.Props
