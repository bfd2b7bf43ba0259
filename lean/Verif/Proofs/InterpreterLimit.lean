import Verif.Proofs.Interpreter
import Verif.Proofs.OrdinalMeaning

/-! CPython 3.11 is the interpreter of `Model/Parser`; with any limit of at least 1300 digits words are read in the same way. -/

namespace NumberParser
open Spec

section Tables
variable (L : Option Nat)

theorem lowerOn_eq : lowerOn (withLimit L) = lower := by
  have : ∀ s rev, lowerGoOn (withLimit L) rev s = lowerGo rev s := by
    intro s
    induction s with
    | nil => intro rev; rfl
    | cons c cs ih => intro rev; unfold lowerGoOn lowerGo; rw [ih]; rfl
  funext s; exact this s []

theorem stripAccentsOn_eq : stripAccentsOn (withLimit L) = stripAccents := by
  have h1 : ∀ c s, insertCccOn (withLimit L) c s = insertCcc c s := by
    intro c s
    induction s with
    | nil => rfl
    | cons d ds ih => unfold insertCccOn insertCcc; rw [ih]; rfl
  have h2 : ∀ s, canonicalOrderOn (withLimit L) s = canonicalOrder s := by
    intro s
    induction s with
    | nil => rfl
    | cons c cs ih => unfold canonicalOrderOn canonicalOrder; rw [ih, h1]
  funext s
  unfold stripAccentsOn stripAccents nfdOn nfd
  rw [h2]; rfl

theorem tokenizeOn_eq : tokenizeOn (withLimit L) = tokenize := by
  have h : ∀ s, splitNonWordOn (withLimit L) s = splitNonWord s := by
    intro s
    induction s with
    | nil => rfl
    | cons c cs ih => unfold splitNonWordOn splitNonWord; rw [ih]; rfl
  funext s l
  unfold tokenizeOn tokenize
  simp only [h]

theorem normalizeTokensOn_eq : normalizeTokensOn (withLimit L) = normalizeTokens := by
  funext ts; unfold normalizeTokensOn normalizeTokens; rw [lowerOn_eq, stripAccentsOn_eq]

theorem languageDataOn_model : languageDataOn (withLimit L) = languageData := by
  funext l
  have h : normalizeDictOn (withLimit L) = normalizeDict := by
    funext d; unfold normalizeDictOn normalizeDict; rw [stripAccentsOn_eq]
  have hm : mkLangDataOn (withLimit L) = mkLangData := by
    funext i; unfold mkLangDataOn mkLangData; rw [h]
  unfold languageDataOn languageData
  rw [hm]
  rfl

theorem resolveLanguageOn_eq : resolveLanguageOn (withLimit L) = resolveLanguage := by
  funext s lang
  cases lang with
  | some l => rfl
  | none =>
    unfold resolveLanguageOn resolveLanguage validTokensByLanguageOn validTokensByLanguage countValidOn countValid
    rw [languageDataOn_model, normalizeTokensOn_eq, tokenizeOn_eq]

end Tables

/-! ### The model is CPython 3.11 -/

theorem python311_limit : python311 = withLimit (some 4300) := rfl

theorem strIntOn_model : strIntOn python311 = strInt := by
  funext n
  unfold strIntOn strInt
  show (if decide ((decDigits n).length ≤ 4300) = true then _ else _) = if (decDigits n).length ≤ 4300 then _ else _
  by_cases h : (decDigits n).length ≤ 4300
  · rw [if_pos h, if_pos (decide_eq_true h)]
  · rw [if_neg h, if_neg (by simpa using h)]

theorem pyIntOn_model : pyIntOn python311 = pyInt := by
  funext s
  unfold pyIntOn pyInt
  simp only
  split
  · rfl
  · show (match List.mapM decimalValue _ with | none => _ | some ds => _) = _
    cases List.mapM decimalValue (rdropWhile isIntSpace (List.dropWhile isIntSpace s)) with
    | none => rfl
    | some ds =>
      show (if decide (ds.length ≤ 4300) = true then _ else _) = if ds.length ≤ 4300 then _ else _
      by_cases h : ds.length ≤ 4300
      · rw [if_pos h, if_pos (decide_eq_true h)]
      · rw [if_neg h, if_neg (by simpa using h)]

theorem buildNumberOn_model : buildNumberOn python311 = buildNumber := by
  have : renderItemOn python311 = renderItem := by
    funext i; cases i with
    | num n => exact congrFun strIntOn_model n
    | skip t => rfl
  funext ld ts; unfold buildNumberOn buildNumber; rw [this]

theorem parseNumberOn_model : parseNumberOn python311 = parseNumber := by
  funext s lang
  unfold parseNumberOn parseNumber
  rw [pyIntOn_model, buildNumberOn_model, python311_limit, resolveLanguageOn_eq, languageDataOn_model, normalizeTokensOn_eq, tokenizeOn_eq]
  rfl

theorem parseOrdinalOn_model : parseOrdinalOn python311 = parseOrdinal := by
  funext s lang
  unfold parseOrdinalOn parseOrdinal
  rw [parseNumberOn_model, python311_limit, resolveLanguageOn_eq, languageDataOn_model, normalizeTokensOn_eq, tokenizeOn_eq]

theorem parseFractionOn_model : parseFractionOn python311 = parseFraction := by
  have : ∀ s l seps, fractionLoopOn python311 s l seps = fractionLoop s l seps := by
    intro s l seps
    induction seps with
    | nil => rfl
    | cons x xs ih => unfold fractionLoopOn fractionLoop; rw [ih, parseNumberOn_model, strIntOn_model]; rfl
  funext s lang
  unfold parseFractionOn parseFraction
  rw [python311_limit, resolveLanguageOn_eq, ← python311_limit]
  simp only [this]

theorem parseStepOn_model : parseStepOn python311 = parseStep := by
  have : buildAndAddOn python311 = buildAndAdd := by
    funext ld s p; unfold buildAndAddOn buildAndAdd; rw [buildNumberOn_model]
  funext ld s t
  unfold parseStepOn parseStep
  rw [this, python311_limit, stripAccentsOn_eq, lowerOn_eq]
  rfl

theorem parseOn_model : parseOn python311 = parse := by
  have : buildAndAddOn python311 = buildAndAdd := by
    funext ld s p; unfold buildAndAddOn buildAndAdd; rw [buildNumberOn_model]
  funext s lang
  unfold parseOn parse parseRawOn parseRaw
  rw [parseStepOn_model, this, python311_limit, resolveLanguageOn_eq, languageDataOn_model, tokenizeOn_eq]

/-! ### Limits of at least 1300 digits -/

section Enough
variable {L : Option Nat}

theorem fits_digits (hL : LimitLE (some 1300) L) {n : Nat} (hn : n < 10 ^ 1300) : (withLimit L).fits (decDigits n).length = true := by
  have h := decDigits_length n 1300 (by decide) hn
  unfold Interpreter.fits withLimit
  cases L with
  | none => rfl
  | some k => simp only [LimitLE] at hL; simp only [decide_eq_true_eq]; omega

theorem mapM_renderOn (hL : LimitLE (some 1300) L) (is : List Item) (h : ∀ n, Item.num n ∈ is → n < 10 ^ 1300) :
    is.mapM (renderItemOn (withLimit L)) = .ok (is.map renderPure) := by
  induction is with
  | nil => rfl
  | cons i is ih =>
    have ih' := ih (fun n hn => h n (List.mem_cons_of_mem _ hn))
    have hi : renderItemOn (withLimit L) i = .ok (renderPure i) := by
      cases i with
      | num n => unfold renderItemOn strIntOn; simp only [fits_digits hL (h n List.mem_cons_self), if_true]; rfl
      | skip t => rfl
    rw [List.mapM_cons, hi, ih']; rfl

theorem buildNumberOn_enough (hL : LimitLE (some 1300) L) {ld : LangData} (h : ld.WF) (ts : List PyStr) (ht : ∀ t ∈ ts, TokOK ld t) :
    buildNumberOn (withLimit L) ld ts = buildNumber ld ts := by
  rw [buildNumber_ok h ts ht]
  exact mapM_renderOn hL _ (buildItems_bound h ts ht)

theorem buildAndAddOn_enough (hL : LimitLE (some 1300) L) {ld : LangData} (h : ld.WF) (s : PState) (ht : ∀ t ∈ s.taken, TokOK ld t) (pop : Bool) :
    buildAndAddOn (withLimit L) ld s pop = buildAndAdd ld s pop := by
  unfold buildAndAddOn buildAndAdd
  rw [buildNumberOn_enough hL h _ ht]

theorem parseStepOn_enough (hL : LimitLE (some 1300) L) {ld : LangData} (h : ld.WF) (s : PState) (hr : RunOK ld s.taken) (t : PyStr) :
    parseStepOn (withLimit L) ld s t = parseStep ld s t := by
  unfold parseStepOn parseStep
  rw [stripAccentsOn_eq, lowerOn_eq]
  generalize hc : stripAccents (lower t) = cmp
  have b := fun (s : PState) (ht : ∀ t ∈ s.taken, TokOK ld t) pop => buildAndAddOn_enough hL h s ht pop
  simp only
  split
  · rfl
  · split
    · rw [b s hr.tok]
    · split
      · rename_i ho
        cases hw : isOrdinalToken cmp ld with
        | none => rw [hw] at ho; cases ho
        | some w =>
          rw [Option.getD_some, b _ (fun x hx => ?_)]
          rcases List.mem_append.mp hx with hx | hx
          · exact hr.tok x hx
          · rw [List.mem_singleton] at hx; subst hx; exact Or.inr (Or.inr (ordinal_mem hw))
      · split
        · rfl
        · cases e : s.taken.getLast? with
          | some last =>
            simp only
            split
            · rw [b { s with taken := s.taken.dropLast } hr.dropLast.tok]
              cases hb : buildAndAdd ld { s with taken := s.taken.dropLast } false with
              | error e => rfl
              | ok s' =>
                have he : s'.taken = [] := by
                  rw [buildAndAdd_eq h.builds _ hr.dropLast.tok] at hb
                  injection hb with hb; rw [← hb]
                show (buildAndAddOn (withLimit L) ld { s' with current := s'.current ++ [last, u!" "] } false >>= _) = _
                rw [b _ (by show ∀ t ∈ s'.taken, _; rw [he]; exact List.forall_mem_nil _)]
                rfl
            · show (buildAndAddOn (withLimit L) ld s false >>= _) = _
              rw [b s hr.tok]; rfl
          | none =>
            show (buildAndAddOn (withLimit L) ld s false >>= _) = _
            rw [b s hr.tok]; rfl

theorem parseFoldOn_enough (hL : LimitLE (some 1300) L) {ld : LangData} (h : ld.WF) (ts : List PyStr) (s : PState) (hr : RunOK ld s.taken) :
    ts.foldlM (parseStepOn (withLimit L) ld) s = ts.foldlM (parseStep ld) s := by
  induction ts generalizing s with
  | nil => rfl
  | cons t ts ih =>
    obtain ⟨s', h1, _, h3⟩ := parseStep_eq h.builds s ⟨s.final ++ s.current, s.taken, s.pop⟩ ⟨rfl, rfl, rfl⟩ hr t
    rw [List.foldlM_cons, List.foldlM_cons, parseStepOn_enough hL h s hr, h1]
    exact ih s' h3

theorem parseOn_enough (hL : LimitLE (some 1300) L) (s : PyStr) (lang : Option PyStr) : parseOn (withLimit L) s lang = parse s lang := by
  unfold parseOn parse
  rw [resolveLanguageOn_eq, languageDataOn_model, tokenizeOn_eq]
  congr 1
  funext l
  cases hl : languageData l with
  | error e => rfl
  | ok ld =>
    have hw := languageData_wf hl
    obtain ⟨s', h1, _, h3⟩ := parseFold_eq hw.builds (tokenize s l) PState.init QState.init ⟨rfl, rfl, rfl⟩ (RunOK.nil ld)
    show (parseRawOn (withLimit L) ld (tokenize s l) >>= _) = (parseRaw ld (tokenize s l) >>= _)
    unfold parseRawOn parseRaw
    rw [parseFoldOn_enough hL hw _ _ (RunOK.nil ld), h1]
    show ((buildAndAddOn (withLimit L) ld s' false >>= _) >>= _) = ((buildAndAdd ld s' false >>= _) >>= _)
    rw [buildAndAddOn_enough hL hw s' h3.tok]

theorem tokensOk_tok {ld : LangData} (ts : List PyStr) (i : Nat) (h : tokensOk ld i ts = true) : ∀ t ∈ ts, TokOK ld t := by
  induction ts generalizing i with
  | nil => exact List.forall_mem_nil _
  | cons t ts ih =>
    intro x hx
    unfold tokensOk at h
    split at h
    · rename_i hc
      rcases List.mem_cons.mp hx with rfl | hx
      · rcases Bool.or_eq_true_iff.mp hc with hc | hc
        · refine Or.inr (Or.inr ?_)
          unfold isCardinalToken at hc
          split at hc
          · assumption
          · cases hc
        · exact Or.inl hc
      · exact ih _ h x hx
    · split at h
      · rename_i hs
        rcases List.mem_cons.mp hx with rfl | hx
        · exact Or.inr (Or.inl (Bool.and_eq_true_iff.mp hs).1)
        · exact ih _ h x hx
      · cases h

theorem pyIntOn_digits (hL : LimitLE (some 1300) L) {n : Nat} (hn : n < 10 ^ 1300) : pyIntOn (withLimit L) (decDigits n) = pyInt (decDigits n) := by
  have h := pyInt_decDigits (lt_4300 hn)
  rw [h]
  have hs : ∀ c ∈ decDigits n, isIntSpace c = false := by
    intro c hc
    unfold isIntSpace; rw [isSpace_ascii_digit ((decDigits_isDigit n).2 c hc)]; rfl
  unfold pyInt at h
  unfold pyIntOn
  rw [dropWhile_none hs, rdropWhile_none hs] at *
  have hm : (decDigits n).mapM (withLimit L).decimal = some ((decDigits n).map (· - 48)) := mapM_decimal_ascii _ (decDigits_isDigit n).2
  have hm' := mapM_decimal_ascii _ (decDigits_isDigit n).2
  have hne : ¬ (decDigits n).isEmpty = true := by
    have := (decDigits_isDigit n).1
    cases hd : decDigits n with
    | nil => exact absurd hd this
    | cons a b => simp
  simp only
  rw [if_neg hne, hm]
  simp only
  rw [List.length_map, fits_digits hL hn, digitsValue_decDigits]
  rfl

theorem parseNumberOn_enough (hL : LimitLE (some 1300) L) (s : PyStr) (hn : ¬ NumericText s) (lang : Option PyStr) :
    parseNumberOn (withLimit L) s lang = parseNumber s lang := by
  have hn' : isNumeric (strip s) = false := by
    rw [Bool.eq_false_iff]; exact fun h => hn ((numericText_iff s).mpr h)
  have hn'' : isNumericOn (withLimit L) (strip s) = false := hn'
  unfold parseNumberOn parseNumber
  rw [hn', hn'', resolveLanguageOn_eq, languageDataOn_model, normalizeTokensOn_eq, tokenizeOn_eq]
  simp only [Bool.false_eq_true, if_false]
  split
  · rfl
  · congr 1
    funext l
    cases hl : languageData l with
    | error e => rfl
    | ok ld =>
      have hw := languageData_wf hl
      show (if _ then _ else _) = (if _ then _ else _)
      split
      · rename_i hk
        have ht := tokensOk_tok _ _ hk
        have hb := buildNumber_ok hw _ ht
        rw [buildNumberOn_enough hL hw _ ht, hb]
        show (match List.map renderPure _ with | [s] => _ | _ => _) = (match List.map renderPure _ with | [s] => _ | _ => _)
        split
        · rename_i x e
          obtain ⟨is, n, hi⟩ := buildItems_last ld (normalizeTokens (tokenize (replace (replace s u!"'" []) u!"’" []) l))
          have hbound := buildItems_bound hw _ ht n (by rw [hi]; simp)
          rw [hi] at e
          have : is = [] := by
            cases is with
            | nil => rfl
            | cons a b => simp at e
          subst this
          simp only [List.nil_append, List.map_cons, List.map_nil, renderPure, List.cons.injEq, and_true] at e
          rw [← e, pyIntOn_digits hL hbound]
        · rfl
      · rfl

theorem parseOrdinalOn_enough (hL : LimitLE (some 1300) L) {l s : PyStr} (hl : l ∈ supported) (h2 : ¬ SingleNumeral (tokenize s l)) :
    parseOrdinalOn (withLimit L) s (some l) = parseOrdinal s (some l) := by
  unfold parseOrdinalOn parseOrdinal
  rw [languageDataOn_model, normalizeTokensOn_eq, tokenizeOn_eq]
  show (languageData l >>= _) = (languageData l >>= _)
  rw [supported_data hl]
  show parseNumberOn (withLimit L) _ (some l) = parseNumber _ (some l)
  apply parseNumberOn_enough hL
  have e : (normalizeTokens (tokenize s l)).map (fun t => applyCardinalConversion t (mkLangData (file l))) = (tokenize s l).map (conv l) := by
    unfold normalizeTokens; rw [List.map_map]; rfl
  rw [e]
  by_cases h1 : ∃ t ∈ tokenize s l, ¬ BlankForm t
  · exact (wordInput_join hl h1 h2).2
  · intro hn
    have hb := numericText_not_blank hn
    have : blank (join u!" " ((tokenize s l).map (conv l))) = true := by
      rw [blank_join]
      intro x hx
      obtain ⟨t, ht, rfl⟩ := List.mem_map.mp hx
      rw [conv_blank_iff hl]
      refine (blankForm_iff t).mp (Classical.byContradiction fun h => h1 ⟨t, ht, h⟩)
    rw [this] at hb; cases hb

theorem fractionLoopOn_enough (hL : LimitLE (some 1300) L) {s : PyStr} (l : PyStr) (seps : List PyStr)
    (h : ∀ pre sep post pos, seps = pre ++ sep :: post → (∀ x ∈ pre, find x s = none) → find sep s = some pos →
      ¬ NumericText (s.take pos) ∧ ¬ NumericText (s.drop (pos + sep.length)))
    (hb : ∀ x n, ¬ NumericText x → parseNumber x (some l) = .ok (some n) → n < 10 ^ 1300) :
    fractionLoopOn (withLimit L) s l seps = fractionLoop s l seps := by
  induction seps with
  | nil => rfl
  | cons sep seps ih =>
    unfold fractionLoopOn fractionLoop
    cases hp : find sep s with
    | none =>
      refine ih (fun pre x post pos e hpre hx => h (sep :: pre) x post pos (by rw [e]; rfl) ?_ hx)
      intro y hy
      rcases List.mem_cons.mp hy with rfl | hy
      · exact hp
      · exact hpre y hy
    | some pos =>
      obtain ⟨h1, h2⟩ := h [] sep seps pos rfl (List.forall_mem_nil _) hp
      simp only
      rw [parseNumberOn_enough hL _ h1, parseNumberOn_enough hL _ h2]
      cases hm : parseNumber (s.take pos) (some l) with
      | error e => rfl
      | ok m =>
        cases hn : parseNumber (s.drop (pos + sep.length)) (some l) with
        | error e => rfl
        | ok n =>
          cases m with
          | none => rfl
          | some m =>
            cases n with
            | none => rfl
            | some n =>
              have s1 : ∀ k, k < 10 ^ 1300 → strIntOn (withLimit L) k = strInt k := by
                intro k hk
                rw [strInt_ok (lt_4300 hk)]
                unfold strIntOn; rw [fits_digits hL hk]; rfl
              show (strIntOn (withLimit L) m >>= fun ms => strIntOn (withLimit L) n >>= fun ns => pure (some (ms ++ u!"/" ++ ns))) =
                (strInt m >>= fun ms => strInt n >>= fun ns => pure (some (ms ++ u!"/" ++ ns)))
              rw [s1 m (hb _ _ h1 hm), s1 n (hb _ _ h2 hn)]

end Enough

/-! ### Digit strings -/

theorem fits_iff (L : Option Nat) (n : Nat) : (withLimit L).fits n = true ↔ LimitLE (some n) L := by
  unfold Interpreter.fits withLimit
  cases L with
  | none => exact ⟨fun _ => trivial, fun _ => rfl⟩
  | some k => simp only [LimitLE, decide_eq_true_eq]

theorem mapM_decimal_length (t : PyStr) (ds : List Nat) (h : t.mapM decimalValue = some ds) : ds.length = t.length := by
  induction t generalizing ds with
  | nil => simp at h; subst h; rfl
  | cons c cs ih =>
    rw [List.mapM_cons] at h
    cases hc : decimalValue c with
    | none => rw [hc] at h; cases h
    | some d =>
      rw [hc] at h
      cases hcs : cs.mapM decimalValue with
      | none => rw [hcs] at h; cases h
      | some ds' =>
        rw [hcs] at h
        simp at h
        subst h
        simp [ih ds' hcs]

theorem pyIntOn_iff (L : Option Nat) (s : PyStr) (n : Nat) : pyIntOn (withLimit L) s = .ok n ↔ DigitTextUpTo L s n := by
  have hd : (withLimit L).decimal = decimalValue := rfl
  constructor
  · intro h
    unfold pyIntOn at h
    simp only [hd] at h
    obtain ⟨a, b, hs, ha, hb⟩ := trim_spec isIntSpace s
    split at h
    · cases h
    · rename_i hne
      split at h
      · cases h
      · rename_i ds hds
        split at h
        · rename_i hl
          injection h with h
          have hl' := mapM_decimal_length _ ds hds
          refine ⟨a, _, b, hs, fun c hc => (intSpace_iff c).mp (ha c hc), fun c hc => (intSpace_iff c).mp (hb c hc),
            (numeral_iff _ _).mpr ⟨fun e => hne (by rw [e]; rfl), ds, hds, h, hl'⟩, ?_⟩
          rw [← hl']; exact (fits_iff L _).mp hl
        · cases h
  · rintro ⟨a, t, b, rfl, ha, hb, ht, hl⟩
    have hns : ∀ c ∈ t, isIntSpace c = false := by
      intro c hc
      obtain ⟨d, hd⟩ := numeral_chars ht c hc
      unfold isIntSpace; rw [(decimal_facts hd).2.2.1]; rfl
    obtain ⟨hne, ds, h1, h2, h3⟩ := (numeral_iff t n).mp ht
    unfold pyIntOn
    rw [trim_append (fun c hc => (intSpace_iff c).mpr (ha c hc)) (fun c hc => (intSpace_iff c).mpr (hb c hc)) hns hne]
    simp only [hd]
    rw [if_neg (by cases t <;> simp_all), h1]
    simp only
    rw [if_pos (by rw [h3]; exact (fits_iff L _).mpr hl), h2]

theorem pyIntOn_error {V : Interpreter} {s : PyStr} {e : PyErr} (h : pyIntOn V s = .error e) : e = .badInt := by
  unfold pyIntOn at h
  simp only at h
  split at h
  · injection h with h; exact h.symm
  · split at h
    · injection h with h; exact h.symm
    · split at h
      · cases h
      · injection h with h; exact h.symm

theorem parseNumberOn_numeric {s : PyStr} (h : NumericText s) (L lang : Option _) :
    parseNumberOn (withLimit L) s lang = (pyIntOn (withLimit L) s).map some := by
  unfold parseNumberOn
  have : isNumericOn (withLimit L) (strip s) = true := (numericText_iff s).mp h
  rw [numericText_not_blank h, this]
  simp only [Bool.false_eq_true, if_false, if_true, bind, Except.bind, pure, Except.pure]
  cases pyIntOn (withLimit L) s <;> rfl

end NumberParser
