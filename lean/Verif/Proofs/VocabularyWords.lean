import Verif.Proofs.Package
import Verif.Proofs.Steps
import Verif.Spec.VocabularyWords

/-! Two modules that do not differ about the words of a text. -/

namespace NumberParser
open Spec

/-- What a lookup of `w` gives is the same in both. -/
structure SameAt (a b : LangData) (w : PyStr) : Prop where
  ud : a.unitAndDirectNumbers.get? w = b.unitAndDirectNumbers.get? w
  direct : a.directNumbers.get? w = b.directNumbers.get? w
  tens : a.tens.get? w = b.tens.get? w
  hundreds : a.hundreds.get? w = b.hundreds.get? w
  big : a.bigPowersOfTen.get? w = b.bigPowersOfTen.get? w
  all : a.allNumbers.mem w = b.allNumbers.mem w
  skip : a.skipTokens.elem w = b.skipTokens.elem w
  group : ∀ p, b.bigPowersOfTen.get? w = some p → (p > a.maximumGroupValue ↔ p > b.maximumGroupValue)

theorem dict_get_same {i j : Info} {w : PyStr} (h : SameWord i j w) (k : Class) : (dictOf i k).get? w = (dictOf j k).get? w := by
  cases hi : (dictOf i k).get? w with
  | some v =>
    exact (normalize_get_some.mpr ((h.tables k v).mp (normalize_get_some.mp hi))).symm
  | none =>
    cases hj : (dictOf j k).get? w with
    | none => rfl
    | some v =>
      have := normalize_get_some.mpr ((h.tables k v).mpr (normalize_get_some.mp hj))
      rw [show Dict.get? (normalizeDict (tableOf i k)) w = (dictOf i k).get? w from rfl, hi] at this
      cases this

theorem ud_get (i : Info) (t : PyStr) : (mkLangData i).unitAndDirectNumbers.get? t = ((dictOf i .direct).get? t).or ((dictOf i .unit).get? t) := by
  show Dict.get? (Dict.merge (Dict.merge [] (normalizeDict i.unitNumbers)) (normalizeDict i.directNumbers)) t = _
  rw [Dict.get?_merge' _ (normalizeDict_nodup _), Dict.get?_merge' _ (normalizeDict_nodup _)]
  show _ = (Dict.get? (normalizeDict i.directNumbers) t).or (Dict.get? (normalizeDict i.unitNumbers) t)
  simp [Dict.get?]

theorem allNumbers_mem (i : Info) (f : PyStr) : (mkLangData i).allNumbers.mem f =
    ((dictOf i .unit).mem f || (dictOf i .direct).mem f || (dictOf i .tens).mem f || (dictOf i .hundreds).mem f || (dictOf i .scale).mem f) := by
  show Dict.mem (Dict.merge (Dict.merge (Dict.merge (Dict.merge (Dict.merge [] _) _) _) _) _) f = _
  simp only [Dict.mem_merge]
  rfl

theorem sameAt_about {K : PyStr → Prop} {i j : Info} (hk : SameAbout K i j) {w : PyStr} (hw : K w) : SameAt (mkLangData i) (mkLangData j) w := by
  have h := hk.words w hw
  refine { ud := ?_, direct := dict_get_same h .direct, tens := dict_get_same h .tens, hundreds := dict_get_same h .hundreds,
           big := dict_get_same h .scale, all := ?_, skip := ?_, group := ?_ }
  · rw [ud_get, ud_get, dict_get_same h, dict_get_same h]
  · rw [allNumbers_mem, allNumbers_mem]
    simp only [Dict.mem, dict_get_same h]
  · show i.skipTokens.elem w = j.skipTokens.elem w
    rw [Bool.eq_iff_iff, List.elem_iff, List.elem_iff]
    exact h.conjunction
  · intro p hp
    have hp : (dictOf j .scale).get? w = some p := hp
    rw [← dict_get_same h] at hp
    show p > (if i.useLongScale then 10000 else 100) ↔ p > (if j.useLongScale then 10000 else 100)
    rcases hk.scale with e | e
    · rw [e]
    · have := e w p hw (normalize_get_some.mp hp)
      cases i.useLongScale <;> cases j.useLongScale <;> simp <;> omega

variable {a b : LangData}

theorem cardinal_same {w : PyStr} (h : SameAt a b w) : isCardinalToken w a = isCardinalToken w b := by
  unfold isCardinalToken; rw [h.all]

theorem subEnd_variant_ieth (g : PyStr) : Variant g (subEnd u!"ieth" u!"y" g) := by
  unfold subEnd
  split
  · rename_i h
    obtain ⟨t, rfl⟩ := List.isSuffixOf_iff_suffix.mp h
    refine Or.inr ⟨t, [], Or.inl rfl, Or.inl ⟨by simp, ?_⟩⟩
    simp
  split
  · rename_i h
    obtain ⟨t, rfl⟩ := List.isSuffixOf_iff_suffix.mp h
    refine Or.inr ⟨t, [10], Or.inr rfl, Or.inl ⟨by simp, ?_⟩⟩
    simp
  · exact Or.inl rfl

theorem subEnd_variant_th (g : PyStr) : Variant g (subEnd u!"th" [] g) := by
  unfold subEnd
  split
  · rename_i h
    obtain ⟨t, rfl⟩ := List.isSuffixOf_iff_suffix.mp h
    refine Or.inr ⟨t, [], Or.inl rfl, Or.inr ⟨by simp, ?_⟩⟩
    simp
  split
  · rename_i h
    obtain ⟨t, rfl⟩ := List.isSuffixOf_iff_suffix.mp h
    refine Or.inr ⟨t, [10], Or.inr rfl, Or.inr ⟨by simp, ?_⟩⟩
    simp
  · exact Or.inl rfl

theorem conversion_variant (t : PyStr) (ld : LangData) : Variant (irregular t) (applyCardinalConversion t ld) := by
  show Variant (irregular t) (if (isCardinalToken (subEnd u!"ieth" u!"y" (irregular t)) ld).isSome then subEnd u!"ieth" u!"y" (irregular t)
    else if (isCardinalToken (subEnd u!"th" [] (irregular t)) ld).isSome then subEnd u!"th" [] (irregular t) else irregular t)
  split
  · exact subEnd_variant_ieth _
  split
  · exact subEnd_variant_th _
  · exact Or.inl rfl

theorem conversion_same {t : PyStr} (h : ∀ w, Variant (irregular t) w → SameAt a b w) : applyCardinalConversion t a = applyCardinalConversion t b := by
  show (if (isCardinalToken (subEnd u!"ieth" u!"y" (irregular t)) a).isSome then subEnd u!"ieth" u!"y" (irregular t)
    else if (isCardinalToken (subEnd u!"th" [] (irregular t)) a).isSome then subEnd u!"th" [] (irregular t) else irregular t) =
    (if (isCardinalToken (subEnd u!"ieth" u!"y" (irregular t)) b).isSome then subEnd u!"ieth" u!"y" (irregular t)
    else if (isCardinalToken (subEnd u!"th" [] (irregular t)) b).isSome then subEnd u!"th" [] (irregular t) else irregular t)
  rw [cardinal_same (h _ (subEnd_variant_ieth _)), cardinal_same (h _ (subEnd_variant_th _))]

theorem numberToken_same {t : PyStr} (h : ∀ w, Variant (irregular t) w → SameAt a b w) : isNumberToken t a = isNumberToken t b := by
  unfold isNumberToken
  rw [conversion_same h, cardinal_same (h _ (conversion_variant t b))]

theorem ordinalToken_same {t : PyStr} (ht : SameAt a b t) (h : ∀ w, Variant (irregular t) w → SameAt a b w) : isOrdinalToken t a = isOrdinalToken t b := by
  unfold isOrdinalToken
  rw [cardinal_same ht, numberToken_same h]

theorem ordinalToken_variant {t w : PyStr} (h : isOrdinalToken t b = some w) : Variant (irregular t) w := by
  unfold isOrdinalToken at h
  split at h
  · unfold isNumberToken isCardinalToken at h
    split at h
    · cases h; exact conversion_variant t b
    · cases h
  · cases h

theorem tokensOk_same (ts : List PyStr) (h : ∀ t ∈ ts, SameAt a b t) (n : Nat) : tokensOk a n ts = tokensOk b n ts := by
  induction ts generalizing n with
  | nil => rfl
  | cons t ts ih =>
    have ht := h t List.mem_cons_self
    unfold tokensOk isSkipToken
    rw [cardinal_same ht, ht.skip, ih (fun t ht => h t (List.mem_cons_of_mem _ ht))]

theorem validity_same {t : PyStr} {prev : Option PyStr} (ht : SameAt a b t) (hp : ∀ p, prev = some p → SameAt a b p) (pp : Option Nat) (x g : Nat) :
    checkValidity t prev pp x g a = checkValidity t prev pp x g b := by
  cases prev with
  | none => rfl
  | some p =>
    have hp := hp p rfl
    unfold checkValidity Dict.mem
    simp only [ht.ud, ht.direct, ht.tens, ht.hundreds, ht.big, hp.ud, hp.tens, hp.big]

theorem multiplier_same {t : PyStr} (ht : SameAt a b t) (x g : Nat) : checkLargeMultiplier t x g a = checkLargeMultiplier t x g b := by
  unfold checkLargeMultiplier; rw [ht.big]

theorem addToken_same {t : PyStr} (ht : SameAt a b t) (s : BState) : addToken a s t = addToken b s t := by
  unfold addToken
  rw [ht.ud, ht.tens, ht.hundreds, ht.big]
  cases hb : b.bigPowersOfTen.get? t with
  | none => rfl
  | some p => simp only [ht.group p hb]

theorem buildStep_same {t : PyStr} (ht : SameAt a b t) (s : BState)
    (hp : ∀ p, s.prevTok = some p → SameAt a b p) : buildStep a s t = buildStep b s t := by
  unfold buildStep
  rw [ht.skip, multiplier_same ht, validity_same ht hp, addToken_same ht, addToken_same ht]

theorem addToken_prev (s : BState) (t : PyStr) : (addToken b s t).prevTok = some t := rfl

theorem buildStep_prev {t : PyStr} (ht : SameAt a b t) (s : BState) (hp : ∀ p, s.prevTok = some p → SameAt a b p) :
    ∀ p, (buildStep b s t).prevTok = some p → SameAt a b p := by
  intro p
  unfold buildStep
  split
  · exact hp p
  split
  · exact hp p
  split
  · intro h; cases h; exact ht
  split
  · intro h; rw [addToken_prev] at h; cases h; exact ht
  · intro h; rw [addToken_prev] at h; cases h; exact ht

theorem buildFold_same (ts : List PyStr) (h : ∀ t ∈ ts, SameAt a b t) (s : BState)
    (hp : ∀ p, s.prevTok = some p → SameAt a b p) : ts.foldl (buildStep a) s = ts.foldl (buildStep b) s := by
  induction ts generalizing s with
  | nil => rfl
  | cons t ts ih =>
    have ht := h t List.mem_cons_self
    rw [List.foldl_cons, List.foldl_cons, buildStep_same ht s hp]
    exact ih (fun t ht => h t (List.mem_cons_of_mem _ ht)) _ (buildStep_prev ht s hp)

theorem buildNumber_same (ts : List PyStr) (h : ∀ t ∈ ts, SameAt a b t) :
    buildNumber a ts = buildNumber b ts := by
  unfold buildNumber buildItems
  rw [buildFold_same ts h BState.init (fun p hp => by cases hp)]

theorem buildAndAdd_same (s : PState) (h : ∀ t ∈ s.taken, SameAt a b t) (x : Bool) :
    buildAndAdd a s x = buildAndAdd b s x := by
  unfold buildAndAdd
  rw [buildNumber_same s.taken h]

theorem buildAndAdd_taken {s s' : PState} {x : Bool} (h : buildAndAdd b s x = .ok s') : s'.taken = [] := by
  unfold buildAndAdd at h
  split at h
  · rename_i he
    cases h
    exact List.isEmpty_iff.mp he
  · cases hb : buildNumber b s.taken with
    | error e => rw [hb] at h; cases h
    | ok r => rw [hb] at h; cases h; rfl

/-- The body of the loop of `parse` does the same, and takes only such words again. -/
theorem parseStep_same (s : PState) (t : PyStr) (hs : ∀ w ∈ s.taken, SameAt a b w)
    (hf : SameAt a b (form t)) (hv : ∀ w, Variant (irregular (form t)) w → SameAt a b w) :
    parseStep a s t = parseStep b s t ∧ ∀ s', parseStep b s t = .ok s' → ∀ w ∈ s'.taken, SameAt a b w := by
  have hf' : SameAt a b (stripAccents (lower t)) := hf
  have ho : isOrdinalToken (stripAccents (lower t)) a = isOrdinalToken (stripAccents (lower t)) b := ordinalToken_same hf' hv
  have hc := cardinal_same hf'
  have hk := hf'.skip
  have hg : ∀ w, (isOrdinalToken (stripAccents (lower t)) b) = some w → SameAt a b w := fun w h => hv w (ordinalToken_variant h)
  unfold parseStep isSkipToken
  dsimp only
  rw [ho, hc, hk]
  split
  · refine ⟨rfl, fun s' h => ?_⟩
    split at h
    · cases h; exact hs
    · cases h; exact hs
  split
  · rw [buildAndAdd_same s hs]
    refine ⟨rfl, fun s' h => ?_⟩
    cases hb : buildAndAdd b s s.pop with
    | error e => rw [hb] at h; cases h
    | ok r =>
      rw [hb] at h; cases h
      intro w hw
      rw [buildAndAdd_taken hb] at hw; cases hw
  split
  · rename_i h3
    have hn : ∀ w ∈ s.taken ++ [(isOrdinalToken (stripAccents (lower t)) b).getD []], SameAt a b w := by
      intro w hw
      rcases List.mem_append.mp hw with hw | hw
      · exact hs w hw
      · rw [List.mem_singleton] at hw
        cases ho : isOrdinalToken (stripAccents (lower t)) b with
        | none => rw [ho] at h3; cases h3
        | some x => rw [ho] at hw; subst hw; exact hg _ ho
    rw [buildAndAdd_same { s with taken := s.taken ++ [(isOrdinalToken (stripAccents (lower t)) b).getD []] } hn]
    refine ⟨rfl, fun s' h => ?_⟩
    cases hb : buildAndAdd b { s with taken := s.taken ++ [(isOrdinalToken (stripAccents (lower t)) b).getD []] } true with
    | error e => rw [hb] at h; cases h
    | ok r =>
      rw [hb] at h; cases h
      intro w hw
      rw [buildAndAdd_taken hb] at hw; cases hw
  split
  · refine ⟨rfl, fun s' h => ?_⟩
    cases h
    intro w hw
    rcases List.mem_append.mp hw with hw | hw
    · exact hs w hw
    · rw [List.mem_singleton] at hw; subst hw; exact hf'
  · have hd : ∀ w ∈ s.taken.dropLast, SameAt a b w := fun w hw => hs w (List.dropLast_subset _ hw)
    have tail : ∀ s : PState, (∀ w ∈ s.taken, SameAt a b w) →
        ((buildAndAdd a s false >>= fun s => (Except.ok { s with current := s.current ++ [t], pop := true } : Res PState)) =
          buildAndAdd b s false >>= fun s => (Except.ok { s with current := s.current ++ [t], pop := true } : Res PState)) ∧
        ∀ s', (buildAndAdd b s false >>= fun s => (Except.ok { s with current := s.current ++ [t], pop := true } : Res PState)) = .ok s' →
          ∀ w ∈ s'.taken, SameAt a b w := by
      intro s hs
      rw [buildAndAdd_same s hs]
      refine ⟨rfl, fun s' h => ?_⟩
      cases hb : buildAndAdd b s false with
      | error e => rw [hb] at h; cases h
      | ok r =>
        rw [hb] at h; cases h
        intro w hw
        rw [show ({ r with current := r.current ++ [t], pop := true } : PState).taken = r.taken from rfl, buildAndAdd_taken hb] at hw; cases hw
    cases hl : s.taken.getLast? with
    | none => exact tail s hs
    | some last =>
      have hlast := hs last (List.mem_of_getLast? hl)
      dsimp only
      rw [hlast.skip]
      split
      · rw [buildAndAdd_same { s with taken := s.taken.dropLast } hd]
        cases hb : buildAndAdd b { s with taken := s.taken.dropLast } false with
        | error e => exact ⟨rfl, fun s' h => by cases h⟩
        | ok r => exact tail { r with current := r.current ++ [last, u!" "] } (fun w hw => by
            rw [show ({ r with current := r.current ++ [last, u!" "] } : PState).taken = r.taken from rfl, buildAndAdd_taken hb] at hw; cases hw)
      · exact tail s hs

theorem parseFold_same (ts : List PyStr) (s : PState) (hs : ∀ w ∈ s.taken, SameAt a b w)
    (h : ∀ t ∈ ts, SameAt a b (form t) ∧ ∀ w, Variant (irregular (form t)) w → SameAt a b w) :
    ts.foldlM (parseStep a) s = ts.foldlM (parseStep b) s ∧ ∀ s', ts.foldlM (parseStep b) s = .ok s' → ∀ w ∈ s'.taken, SameAt a b w := by
  induction ts generalizing s with
  | nil => exact ⟨rfl, fun s' h => by cases h; exact hs⟩
  | cons t ts ih =>
    obtain ⟨h1, h2⟩ := h t List.mem_cons_self
    obtain ⟨e1, e2⟩ := parseStep_same s t hs h1 h2
    rw [List.foldlM_cons, List.foldlM_cons, e1]
    cases hb : parseStep b s t with
    | error e => exact ⟨rfl, fun s' h => by cases h⟩
    | ok r => exact ih r (e2 r hb) (fun t ht => h t (List.mem_cons_of_mem _ ht))

theorem parseRaw_same (ts : List PyStr)
    (h : ∀ t ∈ ts, SameAt a b (form t) ∧ ∀ w, Variant (irregular (form t)) w → SameAt a b w) : parseRaw a ts = parseRaw b ts := by
  obtain ⟨e1, e2⟩ := parseFold_same ts PState.init (fun w hw => by cases hw) h
  unfold parseRaw
  rw [e1]
  cases hb : ts.foldlM (parseStep b) PState.init with
  | error e => rfl
  | ok r =>
    show (buildAndAdd a r false >>= _) = (buildAndAdd b r false >>= _)
    rw [buildAndAdd_same r (e2 r hb)]

theorem join_intersperse (us : List PyStr) : join u!" " us = (us.intersperse [32]).flatten := by
  induction us with
  | nil => rfl
  | cons u us ih =>
    cases us with
    | nil => simp [join]
    | cons v vs => rw [join, ih]; simp

section
variable {p q : Package} {l : PyStr} {i j : Info}

theorem parseNumberIn_words (hp : languageDataIn p l = .ok (mkLangData i)) (hq : languageDataIn q l = .ok (mkLangData j)) (s : PyStr)
    (h : SameAbout (WordIn l (withoutApostrophes s)) i j) : parseNumberIn p s (some l) = parseNumberIn q s (some l) := by
  unfold parseNumberIn resolveLanguageIn
  simp only [bind, Except.bind, hp, hq, replace_apos, dropApos_eq]
  have ht : ∀ t ∈ normalizeTokens (tokenize (withoutApostrophes s) l), SameAt (mkLangData i) (mkLangData j) t := by
    intro t ht
    obtain ⟨x, hx, rfl⟩ := List.mem_map.mp ht
    exact sameAt_about h (⟨_, x, tokens_tokenize l _, hx, rfl⟩)
  rw [tokensOk_same _ ht, buildNumber_same _ ht]

theorem processed_rewritten (s : PyStr) (ld : LangData) :
    Rewritten l s (join u!" " ((normalizeTokens (tokenize s l)).map (fun t => applyCardinalConversion t ld))) := by
  refine ⟨tokenize s l, _, tokens_tokenize l s, ?_, ?_, join_intersperse _⟩
  · simp [normalizeTokens]
  · intro n t w ht hw
    unfold normalizeTokens at hw
    rw [List.map_map, List.getElem?_map, ht] at hw
    cases hw
    exact conversion_variant _ ld

theorem parseOrdinalIn_words (hp : languageDataIn p l = .ok (mkLangData i)) (hq : languageDataIn q l = .ok (mkLangData j)) (s : PyStr)
    (h : SameAbout (CardinalIn l s) i j) (h' : ∀ u, Rewritten l s u → SameAbout (WordIn l (withoutApostrophes u)) i j) :
    parseOrdinalIn p s (some l) = parseOrdinalIn q s (some l) := by
  unfold parseOrdinalIn resolveLanguageIn
  simp only [bind, Except.bind, hp, hq]
  have e : (normalizeTokens (tokenize s l)).map (fun t => applyCardinalConversion t (mkLangData i)) =
      (normalizeTokens (tokenize s l)).map (fun t => applyCardinalConversion t (mkLangData j)) := by
    refine List.map_congr_left fun t ht => ?_
    obtain ⟨x, hx, rfl⟩ := List.mem_map.mp ht
    exact conversion_same fun w hw => sameAt_about h ((Or.inr ⟨_, ⟨_, x, tokens_tokenize l _, hx, rfl⟩, hw⟩))
  rw [e]
  exact parseNumberIn_words hp hq _ (h' _ (processed_rewritten s _))

theorem parseIn_words (hp : languageDataIn p l = .ok (mkLangData i)) (hq : languageDataIn q l = .ok (mkLangData j)) (s : PyStr)
    (h : SameAbout (CardinalIn l s) i j) : parseIn p s (some l) = parseIn q s (some l) := by
  unfold parseIn resolveLanguageIn
  simp only [bind, Except.bind, hp, hq]
  rw [parseRaw_same (tokenize s l) fun t ht =>
    ⟨sameAt_about h ((Or.inl ⟨_, t, tokens_tokenize l _, ht, rfl⟩)),
      fun w hw => sameAt_about h ((Or.inr ⟨_, ⟨_, t, tokens_tokenize l _, ht, rfl⟩, hw⟩))⟩]

theorem countValidIn_words (hp : languageDataIn p l = .ok (mkLangData i)) (hq : languageDataIn q l = .ok (mkLangData j)) (s : PyStr)
    (h : SameAbout (CardinalIn l s) i j) : countValidIn p s l = countValidIn q s l := by
  unfold countValidIn
  simp only [bind, Except.bind, hp, hq]
  have e : (normalizeTokens (tokenize s l)).filter (fun t => (isNumberToken t (mkLangData i)).isSome || isSkipToken t (mkLangData i)) =
      (normalizeTokens (tokenize s l)).filter (fun t => (isNumberToken t (mkLangData j)).isSome || isSkipToken t (mkLangData j)) := by
    refine List.filter_congr fun t ht => ?_
    obtain ⟨x, hx, rfl⟩ := List.mem_map.mp ht
    have hw : WordIn l s (stripAccents (lower x)) := ⟨_, x, tokens_tokenize l _, hx, rfl⟩
    unfold isSkipToken
    rw [numberToken_same fun w hv => sameAt_about h ((Or.inr ⟨_, hw, hv⟩)), (sameAt_about h ((Or.inl hw))).skip]
  rw [e]

end

/-! ### Fractions and detection -/

theorem fractionLoopIn_words {p q : Package} {l : PyStr} {i j : Info} (hp : languageDataIn p l = .ok (mkLangData i))
    (hq : languageDataIn q l = .ok (mkLangData j)) (s : PyStr) (before seps : List PyStr) (hb : ∀ x ∈ before, ¬ Occurs x s)
    (hne : ∀ x ∈ seps, x ≠ [])
    (h : ∀ higher sep lower x y, before ++ seps = higher ++ sep :: lower → (∀ x ∈ higher, ¬ Occurs x s) → SplitAt sep s x y →
      SameAbout (WordIn l (withoutApostrophes x)) i j ∧ SameAbout (WordIn l (withoutApostrophes y)) i j) :
    fractionLoopIn p s l seps = fractionLoopIn q s l seps := by
  induction seps generalizing before with
  | nil => rfl
  | cons sep seps ih =>
    unfold fractionLoopIn
    cases hf : find sep s with
    | none =>
      refine ih (before ++ [sep]) (fun x hx => ?_) (fun x hx => hne x (List.mem_cons_of_mem _ hx)) ?_
      · rcases List.mem_append.mp hx with hx | hx
        · exact hb x hx
        · rw [List.mem_singleton] at hx; subst hx
          exact (find_none (hne x List.mem_cons_self) s).mp hf
      · rw [List.append_assoc]; exact h
    | some pos =>
      dsimp only
      obtain ⟨e1, e2⟩ := h before sep seps _ _ rfl hb (find_some hf)
      rw [parseNumberIn_words hp hq _ e1, parseNumberIn_words hp hq _ e2]

theorem parseFractionIn_words {p q : Package} {l : PyStr} {i j : Info} (hp : languageDataIn p l = .ok (mkLangData i))
    (hq : languageDataIn q l = .ok (mkLangData j)) (s : PyStr)
    (h : ∀ x y, FractionParts s x y → SameAbout (WordIn l (withoutApostrophes x)) i j ∧ SameAbout (WordIn l (withoutApostrophes y)) i j) :
    parseFractionIn p s (some l) = parseFractionIn q s (some l) := by
  unfold parseFractionIn resolveLanguageIn
  simp only [bind, Except.bind]
  rw [fractionLoopIn_words hp hq s [] FRACTION_SEPARATORS (fun x hx => by cases hx) (by decide)
    (fun higher sep lower x y e hh hs => h x y ⟨higher, sep, lower, e, hh, hs⟩)]

theorem detected_same {p q : Package} (hn : p.map Prod.fst = q.map Prod.fst) (s : PyStr)
    (h : ∀ l ∈ p.map Prod.fst, countValidIn p s l = countValidIn q s l) : validTokensByLanguageIn p s = validTokensByLanguageIn q s := by
  have e : ∀ (ls : List PyStr), (∀ l ∈ ls, countValidIn p s l = countValidIn q s l) →
      ls.mapM (fun l => (do return (l, ← countValidIn p s l) : Res (PyStr × Nat))) = ls.mapM (fun l => do return (l, ← countValidIn q s l)) := by
    intro ls h
    induction ls with
    | nil => rfl
    | cons l ls ih =>
      rw [List.mapM_cons, List.mapM_cons, h l List.mem_cons_self, ih (fun l hl => h l (List.mem_cons_of_mem _ hl))]
  unfold validTokensByLanguageIn
  rw [e _ h, hn]

theorem subEnd_newline (suf repl u : PyStr) (hs : 10 ∉ suf) (hne : suf ≠ []) : subEnd suf repl (u ++ suf ++ [10]) = u ++ repl ++ [10] := by
  unfold subEnd
  have hn : suf.isSuffixOf (u ++ suf ++ [10]) = false := by
    refine Bool.eq_false_iff.mpr fun h => ?_
    obtain ⟨t, ht⟩ := List.isSuffixOf_iff_suffix.mp h
    have := congrArg List.getLast? ht
    rw [List.getLast?_append, List.getLast?_append] at this
    cases hl : suf.getLast? with
    | none => exact hne (List.getLast?_eq_none_iff.mp hl)
    | some x =>
      rw [hl] at this
      cases this
      exact hs (List.mem_of_getLast? hl)
  rw [hn]
  have e : u.length + (suf.length + 1) - suf.length - 1 = u.length := by omega
  simp [e]

/-- The variants of a word -/
theorem variant_mem {g w : PyStr} (h : Variant g w) : w ∈ [g, subEnd u!"ieth" u!"y" g, subEnd u!"th" [] g] := by
  rcases h with rfl | ⟨stem, n, rfl | rfl, ⟨rfl, rfl⟩ | ⟨rfl, rfl⟩⟩
  · simp
  · simp only [List.append_nil, subEnd_suffix]; simp
  · simp only [List.append_nil, subEnd_suffix]; simp
  · rw [subEnd_newline _ _ _ (by decide) (by decide)]; simp
  · rw [subEnd_newline u!"th" [] _ (by decide) (by decide)]; simp

theorem not_cardinalIn {l s w : PyStr} (h : (tokenize s l).all (fun t => [form t, irregular (form t), subEnd u!"ieth" u!"y" (irregular (form t)),
    subEnd u!"th" [] (irregular (form t))].all (fun x => x != w)) = true) : ¬ CardinalIn l s w := by
  have hk := List.all_eq_true.mp h
  rintro (⟨ts, t, ht, hm, e⟩ | ⟨f, ⟨ts, t, ht, hm, e⟩, hv⟩)
  · rw [tokens_iff] at ht
    have := hk t (ht ▸ hm)
    rw [e] at this
    simp at this
  · rw [tokens_iff] at ht
    have := hk t (ht ▸ hm)
    rw [List.all_eq_true] at this
    have h2 := variant_mem hv
    rw [e] at h2
    have := this w (List.mem_cons_of_mem _ h2)
    simp at this

theorem not_wordIn {l s w : PyStr} (h : (tokenize s l).all (fun t => form t != w) = true) : ¬ WordIn l s w := by
  rintro ⟨ts, t, ht, hm, e⟩
  rw [tokens_iff] at ht
  have := List.all_eq_true.mp h t (ht ▸ hm)
  rw [e] at this
  simp at this

/-! ### Ways to have the same words -/

theorem last_append {t : List (PyStr × Nat)} {e : PyStr × Nat} {f : PyStr} (h : stripAccents e.1 ≠ f) (v : Nat) :
    LastEntry (t ++ [e]) f v ↔ LastEntry t f v := by
  constructor
  · rintro ⟨a, w, b, ht, hw, hb⟩
    rcases List.eq_nil_or_concat b with rfl | ⟨b', x, rfl⟩
    · have := (List.append_inj' ht rfl).2
      injection this with this
      subst this
      exact absurd hw h
    · rw [List.concat_eq_append] at ht hb
      have e1 : t ++ [e] = (a ++ (w, v) :: b') ++ [x] := by rw [ht]; simp
      obtain ⟨h1, h2⟩ := List.append_inj' e1 rfl
      exact ⟨a, w, b', h1, hw, fun ⟨y, hy, hf⟩ => hb ⟨y, List.mem_append_left _ hy, hf⟩⟩
  · rintro ⟨a, w, b, rfl, hw, hb⟩
    refine ⟨a, w, b ++ [e], by simp, hw, ?_⟩
    rintro ⟨y, hy, hf⟩
    rcases List.mem_append.mp hy with hy | hy
    · exact hb ⟨y, hy, hf⟩
    · rw [List.mem_singleton] at hy; subst hy; exact h hf

theorem last_of_nodup {t : List (PyStr × Nat)} (h : (t.map (fun e => stripAccents e.1)).Nodup) (f : PyStr) (v : Nat) :
    LastEntry t f v ↔ ∃ w, (w, v) ∈ t ∧ stripAccents w = f := by
  constructor
  · rintro ⟨a, w, b, rfl, hw, _⟩
    exact ⟨w, by simp, hw⟩
  · rintro ⟨w, hm, hw⟩
    obtain ⟨a, b, rfl⟩ := List.append_of_mem hm
    refine ⟨a, w, b, rfl, hw, ?_⟩
    rintro ⟨y, hy, hf⟩
    rw [List.map_append, List.map_cons, List.nodup_append] at h
    have := List.nodup_cons.mp h.2.1
    exact this.1 (List.mem_map.mpr ⟨y, hy, hf.trans hw.symm⟩)

end NumberParser
