import Verif.Model.Steps
import Verif.Proofs.Size
import Verif.Proofs.Package

/-! Iterations of the loops. -/

namespace NumberParser
open Spec UnicodeData

set_option maxRecDepth 100000

/-! ### Sequences of calls -/

@[simp] theorem counted_pure {α : Type} (a : α) : (pure a : Counted α) = ⟨.ok a, 0⟩ := rfl

theorem counted_result {α β : Type} (x : Counted α) (f : α → Counted β) : (x >>= f).result = x.result >>= fun a => (f a).result := by
  obtain ⟨r, n⟩ := x
  cases r <;> rfl

theorem iterate_result {β : Type} (n : Nat) (f : Unit → Counted β) : (iterate n >>= f).result = (f ()).result := rfl

theorem iterate_steps {β : Type} (n : Nat) (f : Unit → Counted β) : (iterate n >>= f).steps = n + (f ()).steps := rfl

theorem counted_steps {α β : Type} {x : Counted α} {f : α → Counted β} {k : Nat} (h : ∀ a, x.result = .ok a → (f a).steps ≤ k) :
    (x >>= f).steps ≤ x.steps + k := by
  obtain ⟨r, n⟩ := x
  cases r with
  | error e => show n ≤ n + k; omega
  | ok a => have := h a rfl; show n + (f a).steps ≤ n + k; omega

/-! ### The results are those of the functions -/

theorem languageDataCounted_result (p : Package) (l : PyStr) : (languageDataCounted p l).result = languageDataIn p l := by
  unfold languageDataCounted languageDataIn
  cases p.find? (fun e => e.1 == l) <;> rfl

theorem countValidCounted_result (p : Package) (s l : PyStr) : (countValidCounted p s l).result = countValidIn p s l := by
  unfold countValidCounted countValidIn
  rw [counted_result, languageDataCounted_result]
  rfl

theorem detectionLoop_result (p : Package) (s : PyStr) (ls : List PyStr) :
    (detectionLoop p s ls).result = ls.mapM (fun l => do return (l, ← countValidIn p s l)) := by
  induction ls with
  | nil => rfl
  | cons l ls ih =>
    rw [List.mapM_cons]
    unfold detectionLoop
    rw [iterate_result, counted_result, countValidCounted_result]
    cases countValidIn p s l with
    | error e => rfl
    | ok n =>
      show ((detectionLoop p s ls) >>= _).result = _
      rw [counted_result, ih]
      rfl

theorem resolveLanguageCounted_result (p : Package) (s : PyStr) (l : Option PyStr) :
    (resolveLanguageCounted p s l).result = resolveLanguageIn p s l := by
  cases l with
  | some l => rfl
  | none =>
    unfold resolveLanguageCounted resolveLanguageIn validTokensCounted validTokensByLanguageIn
    rw [counted_result, detectionLoop_result]
    cases (p.map Prod.fst).mapM (fun l => do return (l, ← countValidIn p s l)) with
    | error e => rfl
    | ok m =>
      show (if (maxKey m).2 = 0 then _ else _ : Counted PyStr).result = if (maxKey m).2 = 0 then _ else _
      split <;> rfl

theorem parseNumberCounted_result (p : Package) (s : PyStr) (l : Option PyStr) : (parseNumberCounted p s l).result = parseNumberIn p s l := by
  unfold parseNumberCounted parseNumberIn
  split
  · rfl
  split
  · rfl
  rw [counted_result, resolveLanguageCounted_result]
  cases resolveLanguageIn p s l with
  | error e => rfl
  | ok l =>
    show (languageDataCounted p l >>= _).result = languageDataIn p l >>= _
    rw [counted_result, languageDataCounted_result]
    cases languageDataIn p l with
    | error e => rfl
    | ok ld =>
      show (if tokensOk ld 0 _ = true then _ else _ : Counted (Option Nat)).result = if tokensOk ld 0 _ = true then _ else _
      split
      · show (buildNumberCounted ld _ >>= _).result = buildNumber ld _ >>= _
        rw [counted_result]
        unfold buildNumberCounted
        dsimp only
        cases buildNumber ld _ with
        | error e => rfl
        | ok b =>
          match b with
          | [] => rfl
          | [_] => rfl
          | _ :: _ :: _ => rfl
      · rfl

theorem parseOrdinalCounted_result (p : Package) (s : PyStr) (l : Option PyStr) : (parseOrdinalCounted p s l).result = parseOrdinalIn p s l := by
  unfold parseOrdinalCounted parseOrdinalIn
  rw [counted_result, resolveLanguageCounted_result]
  cases resolveLanguageIn p s l with
  | error e => rfl
  | ok l =>
    show (languageDataCounted p l >>= _).result = languageDataIn p l >>= _
    rw [counted_result, languageDataCounted_result]
    cases languageDataIn p l with
    | error e => rfl
    | ok ld => exact parseNumberCounted_result p _ _

theorem fractionLoopCounted_result (p : Package) (s l : PyStr) (seps : List PyStr) :
    (fractionLoopCounted p s l seps).result = fractionLoopIn p s l seps := by
  induction seps with
  | nil => rfl
  | cons sep seps ih =>
    unfold fractionLoopCounted fractionLoopIn
    rw [iterate_result]
    cases find sep s with
    | none => exact ih
    | some pos =>
      dsimp only
      rw [counted_result, parseNumberCounted_result]
      cases parseNumberIn p (s.take pos) (some l) with
      | error e => rfl
      | ok m =>
        show (parseNumberCounted p _ (some l) >>= _).result = parseNumberIn p _ (some l) >>= _
        rw [counted_result, parseNumberCounted_result]
        cases parseNumberIn p (s.drop (pos + sep.length)) (some l) with
        | error e => rfl
        | ok n => cases m <;> cases n <;> rfl

theorem parseFractionCounted_result (p : Package) (s : PyStr) (l : Option PyStr) : (parseFractionCounted p s l).result = parseFractionIn p s l := by
  unfold parseFractionCounted parseFractionIn
  split
  · rfl
  rw [counted_result, resolveLanguageCounted_result]
  cases resolveLanguageIn p s l with
  | error e => rfl
  | ok l => exact fractionLoopCounted_result p s l _

theorem buildAndAddCounted_result (ld : LangData) (s : PState) (b : Bool) : (buildAndAddCounted ld s b).result = buildAndAdd ld s b := by
  unfold buildAndAddCounted buildAndAdd
  split
  · rfl
  · rw [counted_result]; rfl

theorem parseStepCounted_result (ld : LangData) (s : PState) (t : PyStr) : (parseStepCounted ld s t).result = parseStep ld s t := by
  unfold parseStepCounted parseStep
  rw [iterate_result, iterate_result, iterate_result]
  dsimp only
  by_cases h1 : blank (stripAccents (lower t)) = true
  · rw [if_pos h1, if_pos h1]
    split <;> rfl
  rw [if_neg h1, if_neg h1]
  by_cases h2 : List.elem (stripAccents (lower t)) SENTENCE_SEPARATORS = true
  · rw [if_pos h2, if_pos h2, counted_result, buildAndAddCounted_result]; rfl
  rw [if_neg h2, if_neg h2]
  by_cases h3 : truthy (isOrdinalToken (stripAccents (lower t)) ld) = true
  · rw [if_pos h3, if_pos h3, counted_result, buildAndAddCounted_result]; rfl
  rw [if_neg h3, if_neg h3]
  by_cases h4 : (truthy (isCardinalToken (stripAccents (lower t)) ld) || isSkipToken (stripAccents (lower t)) ld && !s.taken.isEmpty) = true
  · rw [if_pos h4, if_pos h4]; rfl
  rw [if_neg h4, if_neg h4]
  have key : ∀ s : PState, (buildAndAddCounted ld s false >>= fun s =>
      pure (PState.mk s.final (s.current ++ [t]) s.taken true)).result =
      (buildAndAdd ld s false >>= fun s => pure (PState.mk s.final (s.current ++ [t]) s.taken true)) := by
    intro s
    rw [counted_result, buildAndAddCounted_result]; rfl
  cases s.taken.getLast? with
  | none => exact key s
  | some last =>
    dsimp only
    by_cases h5 : isSkipToken last ld = true
    · rw [if_pos h5, if_pos h5, counted_result, buildAndAddCounted_result]
      congr 1
      funext s
      exact key _
    · rw [if_neg h5, if_neg h5]
      exact key s

theorem parseLoopCounted_result (ld : LangData) (s : PState) (ts : List PyStr) : (parseLoopCounted ld s ts).result = ts.foldlM (parseStep ld) s := by
  induction ts generalizing s with
  | nil => rfl
  | cons t ts ih =>
    unfold parseLoopCounted
    rw [counted_result, parseStepCounted_result, List.foldlM_cons]
    congr 1
    funext s
    exact ih s

theorem parseCounted_result (p : Package) (s : PyStr) (l : Option PyStr) : (parseCounted p s l).result = parseIn p s l := by
  unfold parseCounted parseIn parseRaw
  rw [counted_result, resolveLanguageCounted_result]
  cases resolveLanguageIn p s l with
  | error e => rfl
  | ok l =>
    show (languageDataCounted p l >>= _).result = languageDataIn p l >>= _
    rw [counted_result, languageDataCounted_result]
    cases languageDataIn p l with
    | error e => rfl
    | ok ld =>
      show (parseLoopCounted ld PState.init _ >>= _).result = _
      rw [counted_result, parseLoopCounted_result]
      simp only [bind, Except.bind]
      cases List.foldlM (parseStep ld) PState.init (tokenize s l) with
      | error e => rfl
      | ok st =>
        show (buildAndAddCounted ld st false >>= _).result = _
        rw [counted_result, buildAndAddCounted_result]
        dsimp only
        cases buildAndAdd ld st false <;> rfl

/-! ### Lengths -/

theorem splitNonWord_length (s : PyStr) : (splitNonWord s).length ≤ 2 * s.length + 1 := by
  induction s with
  | nil => simp [splitNonWord]
  | cons c cs ih =>
    unfold splitNonWord
    split
    · split
      · simp
      · rename_i h; rw [h] at ih; simp only [List.length_cons] at *; omega
    · simp only [List.length_cons] at *; omega

theorem splitSpaces_length (s : PyStr) : (splitSpaces s).length ≤ 2 * s.length + 1 := by
  induction s with
  | nil => simp [splitSpaces]
  | cons c cs ih =>
    unfold splitSpaces
    split
    · split
      · rename_i h
        rw [h] at ih
        split <;> simp only [List.length_cons] at * <;> omega
      · simp only [List.length_cons] at *; omega
    · split
      · simp
      · rename_i h; rw [h] at ih; simp only [List.length_cons] at *; omega

theorem noShy_length (s : PyStr) : (replace s u!"\u00ad" []).length ≤ s.length := by
  have := replaceGo_length u!"\u00ad" [] (by simp) (by simp) 0 s
  simpa [replace] using this

/-- Tokens: at most two for each character, and one more. -/
theorem tokenize_count (s l : PyStr) : (tokenize s l).length ≤ 2 * s.length + 1 := by
  unfold tokenize
  have := noShy_length s
  dsimp only
  split
  · have := splitSpaces_length (replace s u!"\u00ad" []); omega
  · have := splitNonWord_length (replace s u!"\u00ad" []); omega

theorem tokenize_chars (s l : PyStr) : (tokenize s l).flatten.length ≤ s.length := by
  rw [tokenize_eq, split_flatten]
  unfold noShy
  exact List.length_filter_le _ _

theorem short_lower : lowerMap.all (fun _ v => decide ((v.flatMap decompChar).length ≤ 4)) = true := by decide +kernel

theorem short_nfd : nfdMap.all (fun _ v => decide (v.length ≤ 4)) = true := by decide +kernel

theorem short_decomp (c : Nat) : (decompChar c).length ≤ 4 := by
  unfold decompChar
  split
  · dsimp only; split <;> simp
  · cases hf : nfdMap.find? c with
    | some v => simpa using MTree.all_sound short_nfd hf
    | none => simp

theorem short_lowerChar (c : Nat) : ((lowerChar c).flatMap decompChar).length ≤ 4 := by
  unfold lowerChar
  cases hf : lowerMap.find? c with
  | some v => simpa using MTree.all_sound short_lower hf
  | none => simpa using short_decomp c

theorem nfd_length (s : PyStr) : (nfd s).length = (s.flatMap decompChar).length := by
  have := canonicalOrder_filter (fun _ => true) (s.flatMap decompChar)
  rw [List.filter_eq_self.mpr (fun _ _ => rfl), List.filter_eq_self.mpr (fun _ _ => rfl)] at this
  exact this

theorem lowerGo_length (rev t : PyStr) : ((lowerGo rev t).flatMap decompChar).length ≤ 4 * t.length := by
  induction t generalizing rev with
  | nil => simp [lowerGo]
  | cons c cs ih =>
    simp only [lowerGo, List.flatMap_append, List.length_append, List.length_cons]
    have h2 := ih (c :: rev)
    have h3 : (List.flatMap decompChar (if c = 0x3a3 then [if casedNext rev && !casedNext cs then 0x3c2 else 0x3c3] else lowerChar c)).length ≤ 4 := by
      split
      · simpa using short_decomp _
      · exact short_lowerChar c
    omega

/-- A character becomes at most four. -/
theorem strip_steps (t : PyStr) : stripAccentsSteps (lower t) ≤ 4 * t.length := by
  unfold stripAccentsSteps lower
  rw [nfd_length]
  exact lowerGo_length [] t

theorem norm_length (t : PyStr) : (stripAccents (lower t)).length ≤ 4 * t.length := by
  unfold stripAccents
  exact Nat.le_trans (List.length_filter_le _ _) (strip_steps t)

theorem normalize_steps (ts : List PyStr) : normalizeTokensSteps ts ≤ ts.length + 4 * ts.flatten.length := by
  unfold normalizeTokensSteps
  induction ts with
  | nil => simp
  | cons t ts ih =>
    have := strip_steps t
    simp only [List.map_cons, List.sum_cons, List.length_cons, List.flatten_cons, List.length_append] at *
    omega

theorem tokens_steps (s l : PyStr) : normalizeTokensSteps (tokenize s l) ≤ 6 * s.length + 1 := by
  have h1 := normalize_steps (tokenize s l)
  have h2 := tokenize_count s l
  have h3 := tokenize_chars s l
  omega

theorem conversion_seven : conversionSteps = 7 := rfl

theorem conversions_steps (ts : List PyStr) : (ts.map (fun _ => 1 + conversionSteps)).sum = 8 * ts.length := by
  rw [conversion_seven]
  induction ts with
  | nil => rfl
  | cons t ts ih => simp only [List.map_cons, List.sum_cons, List.length_cons, ih]; omega

theorem normalizeTokens_length (ts : List PyStr) : (normalizeTokens ts).length = ts.length := by simp [normalizeTokens]

/-! ### Bounds -/

/-- The iterations of reading the data modules of all languages -/
def allDataSteps (p : Package) : Nat := (p.map (fun e => languageDataSteps e.2)).sum

theorem languageData_steps (p : Package) (l : PyStr) : (languageDataCounted p l).steps ≤ allDataSteps p := by
  unfold languageDataCounted allDataSteps
  cases hf : p.find? (fun e => e.1 == l) with
  | none => exact Nat.zero_le _
  | some e =>
    have hm := List.mem_of_find?_eq_some hf
    dsimp only
    clear hf
    induction p with
    | nil => cases hm
    | cons x p ih =>
      simp only [List.map_cons, List.sum_cons]
      rcases List.mem_cons.mp hm with rfl | h
      · omega
      · have := ih h; omega

theorem countValid_steps (p : Package) (s l : PyStr) :
    (countValidCounted p s l).steps ≤ (languageDataCounted p l).steps + (22 * s.length + 9) := by
  unfold countValidCounted
  refine counted_steps (fun ld _ => ?_)
  rw [iterate_steps, iterate_steps, conversions_steps, normalizeTokens_length]
  have h1 := tokens_steps s l
  have h2 := tokenize_count s l
  show _ + (_ + 0) ≤ _
  omega

theorem detection_steps (p : Package) (s : PyStr) (ls : List PyStr) :
    (detectionLoop p s ls).steps ≤ (ls.map (fun l => (languageDataCounted p l).steps)).sum + ls.length * (22 * s.length + 10) := by
  induction ls with
  | nil => exact Nat.zero_le _
  | cons l ls ih =>
    unfold detectionLoop
    rw [iterate_steps]
    have h1 : (countValidCounted p s l >>= fun n => detectionLoop p s ls >>= fun rest => pure ((l, n) :: rest)).steps ≤
        (countValidCounted p s l).steps + (detectionLoop p s ls).steps := by
      refine counted_steps (fun n _ => ?_)
      have : ∀ x : Counted Dict, (x >>= fun rest => (pure ((l, n) :: rest) : Counted Dict)).steps ≤ x.steps + 0 := fun x =>
        counted_steps (fun _ _ => Nat.le_refl _)
      exact this _
    have h2 := countValid_steps p s l
    simp only [List.map_cons, List.sum_cons, List.length_cons, Nat.add_mul, Nat.one_mul]
    refine Nat.le_trans (Nat.add_le_add_left h1 1) ?_
    omega

theorem allData_names {p : Package} (hp : (p.map Prod.fst).Nodup) :
    ((p.map Prod.fst).map (fun l => (languageDataCounted p l).steps)).sum = allDataSteps p := by
  have key : ∀ q : Package, (∀ e ∈ q, e ∈ p) → ((q.map Prod.fst).map (fun l => (languageDataCounted p l).steps)).sum = allDataSteps q := by
    intro q
    induction q with
    | nil => intro _; rfl
    | cons e q ih =>
      intro h
      have h1 : languageDataCounted p e.1 = ⟨.ok (mkLangData e.2), languageDataSteps e.2⟩ := by
        unfold languageDataCounted
        have : p.find? (fun x => x.1 == e.1) = some e := by
          have hm := h e (by simp)
          clear ih h
          induction p with
          | nil => cases hm
          | cons x p ihp =>
            simp only [List.map_cons, List.nodup_cons] at hp
            by_cases hx : x.1 = e.1
            · rcases List.mem_cons.mp hm with rfl | hm
              · simp
              · exact absurd (List.mem_map.mpr ⟨e, hm, hx.symm⟩) hp.1
            · rw [List.find?_cons_of_neg (by simpa using hx)]
              rcases List.mem_cons.mp hm with rfl | hm
              · exact absurd rfl hx
              · exact ihp hp.2 hm
        rw [this]
      have h2 := ih (fun x hx => h x (by simp [hx]))
      simp only [List.map_cons, List.sum_cons, h1, h2, allDataSteps]
  exact key p (fun _ h => h)

/-- The iterations of finding the language -/
def detectionSteps (p : Package) (n : Nat) : Option PyStr → Nat
  | some _ => 0
  | none => allDataSteps p + p.length * (22 * n + 10)

theorem resolve_steps {p : Package} (hp : (p.map Prod.fst).Nodup) (s : PyStr) (l : Option PyStr) :
    (resolveLanguageCounted p s l).steps ≤ detectionSteps p s.length l := by
  cases l with
  | some l => exact Nat.le_refl _
  | none =>
    unfold resolveLanguageCounted validTokensCounted detectionSteps
    have h1 := detection_steps p s (p.map Prod.fst)
    rw [allData_names hp, List.length_map] at h1
    refine Nat.le_trans (counted_steps (k := 0) (fun m _ => ?_)) h1
    dsimp only
    split <;> exact Nat.le_refl _

/-- `_build_number`: a conjunction is written at most once -/
theorem buildLoop_steps (ld : LangData) (s : BState) (ts : List PyStr) : buildLoopSteps ld s ts ≤ s.usedSkip.length + 2 * ts.length := by
  induction ts generalizing s with
  | nil => exact Nat.zero_le _
  | cons t ts ih =>
    have h := ih (buildStep ld s t)
    unfold buildLoopSteps buildStepSteps
    have h2 : ∀ s' : BState, (addToken ld s' t).usedSkip.length = 0 := fun s' => rfl
    simp only [List.length_cons]
    unfold buildStep at h ⊢
    split
    · rename_i hb; rw [if_pos hb] at h; omega
    · rename_i hb
      rw [if_neg hb] at h
      split
      · rename_i hs
        rw [if_pos hs] at h
        simp only [List.length_append, List.length_cons, List.length_nil] at h
        omega
      · rename_i hs
        rw [if_neg hs] at h
        cases hl : checkLargeMultiplier t s.total s.grp ld with
        | some p =>
          simp only [hl, List.length_nil] at h ⊢
          omega
        | none =>
          simp only [hl] at h ⊢
          split
          · rename_i hv
            rw [if_pos hv, h2] at h
            omega
          · rename_i hv
            rw [if_neg hv, h2] at h
            omega

theorem buildStep_out (ld : LangData) (s : BState) (t : PyStr) :
    (buildStep ld s t).out.length + (buildStep ld s t).usedSkip.length ≤ s.out.length + s.usedSkip.length + 1 := by
  have h2 : ∀ s' : BState, (addToken ld s' t).usedSkip.length = 0 ∧ (addToken ld s' t).out.length = s'.out.length := by
    intro s'
    refine ⟨rfl, ?_⟩
    unfold addToken
    dsimp only
    repeat' split
    all_goals rfl
  unfold buildStep
  split
  · omega
  split
  · simp only [List.length_append, List.length_cons, List.length_nil]; omega
  split
  · simp only [List.length_nil]; omega
  split
  · rw [(h2 _).1, (h2 _).2]; omega
  · rw [(h2 _).1, (h2 _).2]
    unfold flushInvalid
    simp only [List.length_append, List.length_cons, List.length_nil, List.length_map]
    omega

theorem buildItems_length (ld : LangData) (ts : List PyStr) : (buildItems ld ts).length ≤ ts.length + 1 := by
  have key : ∀ (ts : List PyStr) (s : BState), (ts.foldl (buildStep ld) s).out.length ≤ s.out.length + s.usedSkip.length + ts.length := by
    intro ts
    induction ts with
    | nil => intro s; simp only [List.foldl_nil, List.length_nil]; omega
    | cons t ts ih =>
      intro s
      have h1 := ih (buildStep ld s t)
      have h2 := buildStep_out ld s t
      simp only [List.foldl_cons, List.length_cons]
      omega
  have := key ts BState.init
  unfold buildItems
  simp only [List.length_append, List.length_cons, List.length_nil, BState.init] at *
  omega

theorem build_steps (ld : LangData) (ts : List PyStr) : (buildNumberCounted ld ts).steps ≤ 2 * ts.length := by
  have := buildLoop_steps ld BState.init ts
  simpa [buildNumberCounted, BState.init] using this

theorem tokensOk_steps (ld : LangData) (i : Nat) (ts : List PyStr) : tokensOkSteps ld i ts ≤ ts.length := by
  induction ts generalizing i with
  | nil => exact Nat.le_refl _
  | cons t ts ih =>
    have := ih (i + 1)
    unfold tokensOkSteps
    split
    · simp only [List.length_cons]; omega
    split <;> simp only [List.length_cons] <;> omega

theorem noApos_length (s : PyStr) : (replace (replace s u!"'" []) u!"’" []).length ≤ s.length := by
  have h1 := replaceGo_length u!"'" [] (by simp) (by simp) 0 s
  have h2 := replaceGo_length u!"’" [] (by simp) (by simp) 0 (replace s u!"'" [])
  unfold replace at *
  omega

theorem number_steps {p : Package} (hp : (p.map Prod.fst).Nodup) (s : PyStr) (l : Option PyStr) :
    (parseNumberCounted p s l).steps ≤ detectionSteps p s.length l + allDataSteps p + (12 * s.length + 4) := by
  unfold parseNumberCounted
  split
  · exact Nat.zero_le _
  split
  · exact Nat.zero_le _
  rw [Nat.add_assoc]
  refine Nat.le_trans (counted_steps (k := allDataSteps p + (12 * s.length + 4)) (fun l _ => ?_))
    (Nat.add_le_add_right (resolve_steps hp s l) _)
  refine Nat.le_trans (counted_steps (k := 12 * s.length + 4) (fun ld _ => ?_)) (Nat.add_le_add_right (languageData_steps p l) _)
  dsimp only
  have ha := noApos_length s
  generalize replace (replace s u!"'" []) u!"’" [] = s' at ha ⊢
  rw [iterate_steps, iterate_steps]
  have h1 := tokens_steps s' l
  have h2 := tokenize_count s' l
  have h3 := tokensOk_steps ld 0 (normalizeTokens (tokenize s' l))
  rw [normalizeTokens_length] at h3
  have h4 : (if tokensOk ld 0 (normalizeTokens (tokenize s' l)) = true then do
      let built ← buildNumberCounted ld (normalizeTokens (tokenize s' l))
      match built with
      | [s] => ⟨(do let n ← pyInt s; return some n), 0⟩
      | _ => return none
    else return none : Counted (Option Nat)).steps ≤ 2 * (tokenize s' l).length := by
    split
    · have hb := build_steps ld (normalizeTokens (tokenize s' l))
      rw [normalizeTokens_length] at hb
      refine Nat.le_trans (counted_steps (k := 0) (fun b _ => ?_)) hb
      split <;> exact Nat.le_refl _
    · exact Nat.zero_le _
  refine Nat.le_trans (Nat.add_le_add_left (Nat.add_le_add_left h4 _) _) ?_
  omega

/-! ### `parse_ordinal` -/

theorem subEnd_length (suf repl s : PyStr) (h : repl.length ≤ suf.length) : (subEnd suf repl s).length ≤ s.length := by
  unfold subEnd
  split
  · rename_i hs
    have := (List.isSuffixOf_iff_suffix.mp hs).length_le
    simp only [List.length_append, List.length_take]
    omega
  split
  · rename_i hs
    have := (List.isSuffixOf_iff_suffix.mp hs).length_le
    simp only [List.length_append, List.length_take, List.length_cons, List.length_nil] at *
    omega
  · exact Nat.le_refl _

theorem conversion_length (t : PyStr) (ld : LangData) : (applyCardinalConversion t ld).length ≤ t.length := by
  have h := (irregular_facts t).1
  have e : irregular t = CARDINAL_DIRECT_NUMBERS.foldl (fun t wn => replace t wn.1 wn.2) t := rfl
  rw [e] at h
  unfold applyCardinalConversion
  dsimp only
  generalize CARDINAL_DIRECT_NUMBERS.foldl (fun t wn => replace t wn.1 wn.2) t = g at h ⊢
  split
  · exact Nat.le_trans (subEnd_length _ _ _ (by decide)) h
  split
  · exact Nat.le_trans (subEnd_length _ _ _ (by decide)) h
  · exact h

theorem join_length (ts : List PyStr) : (join u!" " ts).length ≤ ts.flatten.length + ts.length := by
  induction ts with
  | nil => simp [join]
  | cons t ts ih =>
    cases ts with
    | nil => simp [join]
    | cons u ts =>
      simp only [join, List.length_append, List.flatten_cons, List.length_cons, List.length_nil] at *
      omega

theorem processed_chars (ts : List PyStr) (ld : LangData) :
    ((normalizeTokens ts).map (fun t => applyCardinalConversion t ld)).flatten.length ≤ 4 * ts.flatten.length := by
  induction ts with
  | nil => simp [normalizeTokens]
  | cons t ts ih =>
    have h1 := conversion_length (stripAccents (lower t)) ld
    have h2 := norm_length t
    simp only [normalizeTokens, List.map_cons, List.flatten_cons, List.length_append] at *
    omega

theorem ordinal_steps {p : Package} (hp : (p.map Prod.fst).Nodup) (s : PyStr) (l : Option PyStr) :
    (parseOrdinalCounted p s l).steps ≤ detectionSteps p s.length l + 2 * allDataSteps p + (94 * s.length + 25) := by
  unfold parseOrdinalCounted
  rw [Nat.add_assoc]
  refine Nat.le_trans (counted_steps (k := 2 * allDataSteps p + (94 * s.length + 25)) (fun l _ => ?_))
    (Nat.add_le_add_right (resolve_steps hp s l) _)
  rw [show 2 * allDataSteps p + (94 * s.length + 25) = allDataSteps p + (allDataSteps p + (94 * s.length + 25)) by omega]
  refine Nat.le_trans (counted_steps (k := allDataSteps p + (94 * s.length + 25)) (fun ld _ => ?_)) (Nat.add_le_add_right (languageData_steps p l) _)
  dsimp only
  rw [iterate_steps, iterate_steps, conversions_steps, normalizeTokens_length]
  have h1 := tokens_steps s l
  have h2 := tokenize_count s l
  have h3 := tokenize_chars s l
  have h4 := processed_chars (tokenize s l) ld
  have h5 := join_length ((normalizeTokens (tokenize s l)).map (fun t => applyCardinalConversion t ld))
  rw [List.length_map, normalizeTokens_length] at h5
  have h6 := number_steps hp (join u!" " ((normalizeTokens (tokenize s l)).map (fun t => applyCardinalConversion t ld))) (some l)
  simp only [detectionSteps] at h6
  omega

/-! ### `parse_fraction` -/

theorem fractionLoop_steps {p : Package} (hp : (p.map Prod.fst).Nodup) (s l : PyStr) (seps : List PyStr) :
    (fractionLoopCounted p s l seps).steps ≤ seps.length + 2 * allDataSteps p + (12 * s.length + 8) := by
  induction seps with
  | nil => exact Nat.zero_le _
  | cons sep seps ih =>
    unfold fractionLoopCounted
    rw [iterate_steps]
    simp only [List.length_cons]
    cases find sep s with
    | none => dsimp only; omega
    | some pos =>
      dsimp only
      have h1 := number_steps hp (s.take pos) (some l)
      have h2 := number_steps hp (s.drop (pos + sep.length)) (some l)
      have h3 : (s.take pos).length + (s.drop (pos + sep.length)).length ≤ s.length := by
        simp only [List.length_take, List.length_drop]; omega
      simp only [detectionSteps] at h1 h2
      refine Nat.le_trans (Nat.add_le_add_left (counted_steps (k := (parseNumberCounted p (s.drop (pos + sep.length)) (some l)).steps + 0)
        (fun m _ => counted_steps (fun n _ => ?_))) 1) ?_
      · cases m <;> cases n <;> exact Nat.le_refl _
      · omega

theorem fraction_steps {p : Package} (hp : (p.map Prod.fst).Nodup) (s : PyStr) (l : Option PyStr) :
    (parseFractionCounted p s l).steps ≤ detectionSteps p s.length l + 2 * allDataSteps p + (12 * s.length + 12) := by
  unfold parseFractionCounted
  split
  · exact Nat.zero_le _
  rw [Nat.add_assoc]
  refine Nat.le_trans (counted_steps (k := 2 * allDataSteps p + (12 * s.length + 12)) (fun l _ => ?_))
    (Nat.add_le_add_right (resolve_steps hp s l) _)
  have := fractionLoop_steps hp s l FRACTION_SEPARATORS
  rw [show FRACTION_SEPARATORS.length = 4 from rfl] at this
  omega

/-! ### `parse` -/

theorem buildAndAdd_steps (ld : LangData) (s : PState) (b : Bool) :
    (buildAndAddCounted ld s b).steps ≤ 4 * s.taken.length ∧ ∀ s', (buildAndAddCounted ld s b).result = .ok s' → s'.taken = [] := by
  unfold buildAndAddCounted
  split
  · rename_i h
    refine ⟨Nat.zero_le _, fun s' hs => ?_⟩
    cases hs
    simpa using h
  · rename_i h
    have h1 : 1 ≤ s.taken.length := by
      cases ht : s.taken with
      | nil => rw [ht] at h; exact absurd rfl h
      | cons => simp
    have h2 := build_steps ld s.taken
    refine ⟨Nat.le_trans (counted_steps (k := s.taken.length + 1) (fun r hr => ?_)) (by omega), fun s' hs => ?_⟩
    · rw [iterate_steps]
      have h3 := mapM_length hr
      have h4 := buildItems_length ld s.taken
      show r.length + 0 ≤ _
      omega
    · rw [counted_result] at hs
      cases hr : (buildNumberCounted ld s.taken).result with
      | error e => rw [hr] at hs; cases hs
      | ok r => rw [hr] at hs; cases hs; rfl

/-- At most `k` iterations, counting four for every token that is kept for later -/
def Paid (k : Nat) (x : Counted PState) : Prop := x.steps ≤ k ∧ ∀ s, x.result = .ok s → x.steps + 4 * s.taken.length ≤ k

theorem paid_pure {s : PState} {k : Nat} (h : 4 * s.taken.length ≤ k) : Paid k (pure s) :=
  ⟨Nat.zero_le _, fun s' hs => by cases hs; show 0 + _ ≤ _; omega⟩

theorem paid_bind {x : Counted PState} {f : PState → Counted PState} {k m : Nat} (hx : Paid k x) (hf : ∀ s, Paid (4 * s.taken.length + m) (f s)) :
    Paid (k + m) (x >>= f) := by
  obtain ⟨r, n⟩ := x
  obtain ⟨h1, h2⟩ := hx
  cases r with
  | error e =>
    refine ⟨?_, fun s hs => by cases hs⟩
    show n ≤ _
    have : n ≤ k := h1
    omega
  | ok a =>
    have h3 : n + 4 * a.taken.length ≤ k := h2 a rfl
    obtain ⟨h4, h5⟩ := hf a
    refine ⟨?_, fun s hs => ?_⟩
    · show n + (f a).steps ≤ _
      omega
    · have := h5 s hs
      show n + (f a).steps + _ ≤ _
      omega

theorem paid_iterate {n k : Nat} {f : Unit → Counted PState} (h : Paid k (f ())) : Paid (n + k) (iterate n >>= f) := by
  obtain ⟨h1, h2⟩ := h
  refine ⟨?_, fun s hs => ?_⟩
  · show n + _ ≤ _; omega
  · have := h2 s hs
    show n + _ + _ ≤ _; omega

theorem paid_mono {x : Counted PState} {k m : Nat} (h : Paid k x) (hk : k ≤ m) : Paid m x :=
  ⟨Nat.le_trans h.1 hk, fun s hs => Nat.le_trans (h.2 s hs) hk⟩

theorem paid_build (ld : LangData) (s : PState) (b : Bool) : Paid (4 * s.taken.length) (buildAndAddCounted ld s b) := by
  obtain ⟨h1, h2⟩ := buildAndAdd_steps ld s b
  refine ⟨h1, fun s' hs => ?_⟩
  rw [h2 s' hs]
  exact h1

theorem paid_step (ld : LangData) (s : PState) (t : PyStr) : Paid (4 * s.taken.length + (12 + 4 * t.length)) (parseStepCounted ld s t) := by
  have h0 := strip_steps t
  have h7 : ordinalTokenSteps (stripAccents (lower t)) ld ≤ 7 := by
    unfold ordinalTokenSteps; split
    · exact Nat.le_refl _
    · exact Nat.zero_le _
  unfold parseStepCounted
  refine paid_mono (k := 1 + (stripAccentsSteps (lower t) + (ordinalTokenSteps (stripAccents (lower t)) ld + (4 * s.taken.length + 4))))
    (paid_iterate (paid_iterate (paid_iterate ?_))) (by omega)
  dsimp only
  split
  · split <;> exact paid_pure (by dsimp only; omega)
  split
  · exact paid_bind (paid_build ld s _) (fun s => paid_pure (by dsimp only; omega))
  split
  · refine paid_mono (paid_bind (m := 0) (paid_build ld _ _) (fun s => paid_pure (by dsimp only; omega))) ?_
    simp only [List.length_append, List.length_cons, List.length_nil]
    omega
  split
  · refine paid_pure ?_
    simp only [List.length_append, List.length_cons, List.length_nil]
    omega
  have key : ∀ s : PState, Paid (4 * s.taken.length + 0) (buildAndAddCounted ld s false >>= fun s =>
      pure (PState.mk s.final (s.current ++ [t]) s.taken true)) := fun s =>
    paid_bind (paid_build ld s _) (fun s => paid_pure (by dsimp only; omega))
  cases s.taken.getLast? with
  | none =>
    exact paid_mono (paid_bind (k := 4 * s.taken.length) (m := 0) (paid_pure (Nat.le_refl _)) key) (by omega)
  | some last =>
    dsimp only
    split
    · refine paid_mono (paid_bind (m := 0) (paid_build ld _ _) (fun s => ?_)) ?_
      · exact paid_bind (m := 0) (paid_pure (Nat.le_refl _)) key
      · simp only [List.length_dropLast]
        omega
    · exact paid_mono (paid_bind (k := 4 * s.taken.length) (m := 0) (paid_pure (Nat.le_refl _)) key) (by omega)

theorem paid_loop (ld : LangData) (s : PState) (ts : List PyStr) :
    Paid (4 * s.taken.length + (12 * ts.length + 4 * ts.flatten.length)) (parseLoopCounted ld s ts) := by
  induction ts generalizing s with
  | nil => exact paid_pure (by simp)
  | cons t ts ih =>
    unfold parseLoopCounted
    refine paid_mono (paid_bind (paid_step ld s t) ih) ?_
    simp only [List.length_cons, List.flatten_cons, List.length_append]
    omega

theorem parse_steps {p : Package} (hp : (p.map Prod.fst).Nodup) (s : PyStr) (l : Option PyStr) :
    (parseCounted p s l).steps ≤ detectionSteps p s.length l + allDataSteps p + (28 * s.length + 12) := by
  unfold parseCounted
  rw [Nat.add_assoc]
  refine Nat.le_trans (counted_steps (k := allDataSteps p + (28 * s.length + 12)) (fun l _ => ?_))
    (Nat.add_le_add_right (resolve_steps hp s l) _)
  refine Nat.le_trans (counted_steps (k := 28 * s.length + 12) (fun ld _ => ?_)) (Nat.add_le_add_right (languageData_steps p l) _)
  have h1 := paid_loop ld PState.init (tokenize s l)
  have h2 := tokenize_count s l
  have h3 := tokenize_chars s l
  have h4 := (paid_bind (m := 0) (f := fun s => buildAndAddCounted ld s false) h1 (fun s => paid_build ld s false)).1
  have h5 : ∀ x : Counted PState, (x >>= fun s => buildAndAddCounted ld s false >>= fun s =>
      (pure (strip (s.final ++ s.current).flatten) : Counted PyStr)).steps = (x >>= fun s => buildAndAddCounted ld s false).steps := by
    rintro ⟨r, n⟩
    cases r with
    | error e => rfl
    | ok s =>
      have : ∀ y : Counted PState, (y >>= fun s => (pure (strip (s.final ++ s.current).flatten) : Counted PyStr)).steps = y.steps := by
        rintro ⟨r, n⟩
        cases r <;> rfl
      show n + _ = n + _
      rw [this]
  rw [h5]
  refine Nat.le_trans h4 ?_
  simp only [PState.init, List.length_nil]
  omega

end NumberParser
