import Verif.Proofs.NumberText

/-! Changing the case of letters. -/

set_option linter.unusedSimpArgs false

namespace NumberParser
open Spec UnicodeData

set_option maxRecDepth 100000

/-- A function that does not distinguish the cases of letters. -/
theorem al_inv {α : Type} [DecidableEq α] (f : Nat → α)
    (h : lowerMap.all (fun c v => c == 0x3a3 || match v with | [d] => decide (f d = f c) | _ => true) = true) (c : Nat) :
    f (letterLower c) = f c := by
  unfold letterLower
  split
  · rfl
  · rename_i hc
    unfold lowerChar
    cases hf : lowerMap.find? c with
    | none => rfl
    | some v =>
      have := MTree.all_sound h hf
      simp only [Option.getD_some]
      match v, this with
      | [], _ => rfl
      | [d], this =>
        have h2 : c == 0x3a3 || decide (f d = f c) := this
        rcases Bool.or_eq_true_iff.mp h2 with h3 | h3
        · exact absurd (eq_of_beq h3) hc
        · exact of_decide_eq_true h3
      | _ :: _ :: _, _ => rfl

theorem al_word (c : Nat) : isWord (letterLower c) = isWord c := al_inv isWord (by decide +kernel) c
theorem al_space (c : Nat) : isSpace (letterLower c) = isSpace c := al_inv isSpace (by decide +kernel) c
theorem al_numeric (c : Nat) : isNumericChar (letterLower c) = isNumericChar c := al_inv isNumericChar (by decide +kernel) c
theorem al_cased (c : Nat) : isCased (letterLower c) = isCased c := al_inv isCased (by decide +kernel) c
theorem al_ign (c : Nat) : isCaseIgnorable (letterLower c) = isCaseIgnorable c := al_inv isCaseIgnorable (by decide +kernel) c
theorem al_lower (c : Nat) : lowerChar (letterLower c) = lowerChar c := al_inv lowerChar (by decide +kernel) c
theorem al_decimal (c : Nat) : decimalValue (letterLower c) = decimalValue c := al_inv decimalValue (by decide +kernel) c
theorem al_ne (x : Nat) (hx : lowerMap.all (fun c v => c == 0x3a3 || match v with | [d] => decide ((d != x) = (c != x)) | _ => true) = true) (c : Nat) : (letterLower c != x) = (c != x) :=
  al_inv (fun c => c != x) hx c

def al (s : PyStr) : PyStr := s.map letterLower

theorem dropWhile_al {p : Nat → Bool} (hp : ∀ c, p (letterLower c) = p c) (s : PyStr) : (al s).dropWhile p = al (s.dropWhile p) := by
  unfold al
  rw [List.dropWhile_map]
  have : p ∘ letterLower = p := funext hp
  rw [this]

theorem casedNext_al (s : PyStr) : casedNext (al s) = casedNext s := by
  unfold casedNext
  rw [dropWhile_al al_ign]
  cases s.dropWhile isCaseIgnorable with
  | nil => rfl
  | cons c cs => exact al_cased c

theorem lowerGo_al (rev s : PyStr) : lowerGo (al rev) (al s) = lowerGo rev s := by
  induction s generalizing rev with
  | nil => rfl
  | cons c cs ih =>
    show lowerGo (al rev) (letterLower c :: al cs) = _
    have hs : (letterLower c = 0x3a3) ↔ (c = 0x3a3) := by
      have := al_ne 0x3a3 (by decide +kernel) c
      simpa [bne_iff_ne] using congrArg (fun b => b = false) this
    simp only [lowerGo]
    have := ih (c :: rev)
    rw [show al (c :: rev) = letterLower c :: al rev from rfl] at this
    rw [this, casedNext_al, casedNext_al, al_lower]
    by_cases hc : c = 0x3a3
    · rw [if_pos hc, if_pos (hs.mpr hc)]
    · rw [if_neg hc, if_neg (fun h => hc (hs.mp h))]

theorem norm_al (s : PyStr) : norm (al s) = norm s := by
  unfold norm lower
  rw [← lowerGo_al [] s]; rfl

theorem splitNonWord_al (s : PyStr) : splitNonWord (al s) = (splitNonWord s).map al := by
  induction s with
  | nil => rfl
  | cons c cs ih =>
    show splitNonWord (letterLower c :: al cs) = _
    simp only [splitNonWord, al_word]
    split
    · rw [ih]
      cases splitNonWord cs with
      | nil => rfl
      | cons t ts => rfl
    · rw [ih]; rfl

theorem splitSpaces_al (s : PyStr) : splitSpaces (al s) = (splitSpaces s).map al := by
  induction s with
  | nil => rfl
  | cons c cs ih =>
    show splitSpaces (letterLower c :: al cs) = _
    simp only [splitSpaces, al_space]
    split
    · rw [ih]
      cases cs with
      | nil => rfl
      | cons d ds =>
        rw [show al (d :: ds) = letterLower d :: al ds from rfl]
        cases hs : splitSpaces (d :: ds) with
        | nil => rfl
        | cons t ts =>
          cases t with
          | nil =>
            cases ts with
            | nil => rfl
            | cons run ts =>
              simp only [List.map_cons, al_space, al, List.map_nil]
              split <;> rfl
          | cons x t => rfl
    · rw [ih]
      cases splitSpaces cs with
      | nil => rfl
      | cons t ts => rfl

theorem filter_al {p : Nat → Bool} (hp : ∀ c, p (letterLower c) = p c) (s : PyStr) : (al s).filter p = al (s.filter p) := by
  unfold al
  rw [List.filter_map]
  have : p ∘ letterLower = p := funext hp
  rw [this]

theorem noShy_al (s : PyStr) : noShy (al s) = al (noShy s) := filter_al (al_ne 0xad (by decide +kernel)) s

theorem dropApos_al (s : PyStr) : dropApos (al s) = al (dropApos s) := by
  unfold dropApos
  rw [filter_al (al_ne 39 (by decide +kernel)), filter_al (al_ne 0x2019 (by decide +kernel))]

theorem split_al (l s : PyStr) : split l (al s) = (split l s).map al := by
  unfold split
  split
  · exact splitSpaces_al s
  · exact splitNonWord_al s

theorem tokens_al (l s : PyStr) : normalizeTokens (tokenize (al s) l) = normalizeTokens (tokenize s l) := by
  rw [tokenize_eq, tokenize_eq, noShy_al, split_al]
  unfold normalizeTokens
  rw [List.map_map]
  apply List.map_congr_left
  intro t _
  exact norm_al t

theorem strip_al (s : PyStr) : strip (al s) = al (strip s) := by
  unfold strip rdropWhile
  rw [dropWhile_al al_space]
  have : (al (s.dropWhile isSpace)).reverse = al (s.dropWhile isSpace).reverse := by unfold al; rw [List.map_reverse]
  rw [this, dropWhile_al al_space]
  unfold al; rw [List.map_reverse]

theorem blank_al (s : PyStr) : blank (al s) = blank s := by
  unfold blank
  rw [strip_al]; unfold al; simp

theorem isNumeric_al (s : PyStr) : isNumeric (strip (al s)) = isNumeric (strip s) := by
  rw [strip_al]
  unfold isNumeric al
  rw [List.all_map]
  have : isNumericChar ∘ letterLower = isNumericChar := funext al_numeric
  rw [this]; simp

theorem al_intSpace (c : Nat) : isIntSpace (letterLower c) = isIntSpace c := al_inv isIntSpace (by decide +kernel) c

theorem pyInt_al (s : PyStr) : pyInt (al s) = pyInt s := by
  unfold pyInt rdropWhile
  have h1 : ∀ t : PyStr, (al t).reverse = al t.reverse := fun t => by unfold al; rw [List.map_reverse]
  rw [dropWhile_al al_intSpace, h1, dropWhile_al al_intSpace, h1]
  have h2 : ∀ t : PyStr, (al t).mapM decimalValue = t.mapM decimalValue := by
    intro t
    unfold al
    rw [List.mapM_map]
    congr 1
    exact funext al_decimal
  have h3 : ∀ t : PyStr, (al t).isEmpty = t.isEmpty := fun t => by unfold al; simp
  simp only [h2, h3]

theorem countValid_al (s l : PyStr) : countValid (al s) l = countValid s l := by
  unfold countValid; rw [tokens_al]

theorem validTokens_al (s : PyStr) : validTokensByLanguage (al s) = validTokensByLanguage s := by
  unfold validTokensByLanguage
  simp only [countValid_al]

theorem resolve_al (s : PyStr) (lang : Option PyStr) : resolveLanguage (al s) lang = resolveLanguage s lang := by
  cases lang with
  | some l => rfl
  | none => exact validTokens_al s

theorem parseNumber_al (s : PyStr) (lang : Option PyStr) : parseNumber (al s) lang = parseNumber s lang := by
  unfold parseNumber
  rw [blank_al, isNumeric_al, resolve_al]
  simp only [replace_apos, dropApos_al, tokens_al, pyInt_al]

theorem parseOrdinal_al (s : PyStr) (lang : Option PyStr) : parseOrdinal (al s) lang = parseOrdinal s lang := by
  unfold parseOrdinal
  simp only [resolve_al, tokens_al]

theorem lowerMap_single : lowerMap.all (fun c v => c == 0x130 || v.length == 1) = true := by decide +kernel

theorem al_idem (c : Nat) : letterLower (letterLower c) = letterLower c := al_inv letterLower (by decide +kernel) c

theorem lowerChar_al {c : Nat} (h1 : c ≠ 0x3a3) (h2 : c ≠ 0x130) : lowerChar c = [letterLower c] := by
  unfold letterLower
  rw [if_neg h1]
  unfold lowerChar
  cases hf : lowerMap.find? c with
  | none => rfl
  | some v =>
    have := MTree.all_sound lowerMap_single hf
    simp only [Option.getD_some]
    match v, this with
    | [], this => simp [h2] at this
    | [d], _ => rfl
    | _ :: _ :: _, this => simp [h2] at this

/-- `s.lower()` without Σ and İ. -/
theorem lower_al {s : PyStr} (h : ∀ c ∈ s, c ≠ 0x3a3 ∧ c ≠ 0x130) : lower s = al s := by
  have key : ∀ (s rev : PyStr), (∀ c ∈ s, c ≠ 0x3a3 ∧ c ≠ 0x130) → lowerGo rev s = al s := by
    intro s
    induction s with
    | nil => intro rev _; rfl
    | cons c s ih =>
      intro rev h
      have hc := h c (by simp)
      simp only [lowerGo]
      rw [if_neg hc.1, lowerChar_al hc.1 hc.2, ih _ (fun d hd => h d (by simp [hd]))]
      rfl
  exact key s [] h

theorem lower_sameUpToCase {s : PyStr} (h : ∀ c ∈ s, c ≠ 0x3a3 ∧ c ≠ 0x130) : SameUpToCase (lower s) s := by
  rw [lower_al h]
  show al (al s) = al s
  unfold al
  rw [List.map_map]
  exact List.map_congr_left (fun c _ => al_idem c)

end NumberParser
