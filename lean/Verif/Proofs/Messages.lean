import Verif.Spec.Messages
import Verif.Proofs.FileRuns

/-! # Proofs about the messages of the generator -/

namespace NumberParser

open Gen Spec

theorem keyText_eq (key : PyStr) : notInteger key = keyText key := by
  unfold notInteger keyText
  rw [List.append_assoc]

theorem integerKey_none (key : PyStr) : pyIntAny key = none ↔ ¬ IntegerKey key := by
  unfold IntegerKey
  cases h : pyIntAny key with
  | none =>
    refine ⟨fun _ => ?_, fun _ => rfl⟩
    rintro ⟨n, hn⟩
    rw [(integerText_iff key n).mpr hn] at h
    cases h
  | some n => exact ⟨fun h => (by cases h), fun hn => absurd ⟨n, (integerText_iff key n).mp h⟩ hn⟩

theorem extract_none {key w : PyStr} (h : pyIntAny key = none) (d : Tables Int) : extractInformation key w d = .ok d := by
  unfold extractInformation
  rw [h]
  rfl

theorem keyMessages_cons_none {r : PyStr × PyStr} (h : pyIntAny r.1 = none) (rs : List (PyStr × PyStr)) :
    keyMessages (r :: rs) = .printed (notInteger r.1) :: keyMessages rs := by
  unfold keyMessages
  rw [List.filter_cons_of_pos (by simpa using (integerKey_none _).mp h), List.map_cons, keyText_eq]

theorem keyMessages_cons_some {r : PyStr × PyStr} {n : Int} (h : pyIntAny r.1 = some n) (rs : List (PyStr × PyStr)) :
    keyMessages (r :: rs) = keyMessages rs := by
  unfold keyMessages
  rw [List.filter_cons_of_neg]
  have hk : IntegerKey r.1 := ⟨n, (integerText_iff _ _).mp h⟩
  simpa using hk

theorem keyMessages_append (a b : List (PyStr × PyStr)) : keyMessages (a ++ b) = keyMessages a ++ keyMessages b := by
  unfold keyMessages
  rw [List.filter_append, List.map_append]

/-- The rules as they stand in the file -/
def asItems (rules : List (PyStr × PyStr)) : List (PyStr × Json) := rules.map (fun r => (r.1, Json.str r.2))

/-! ## One set of rules -/

theorem sayRules_same {c : Console} {items : List (PyStr × Json)}
    (h : ∀ e ∈ items, ¬ IntegerKey e.1 → c.takes (keyText e.1) = true) (d : Tables Int) :
    (sayRules c items d).2 = extractRulesJson (.obj items) d := by
  unfold extractRulesJson
  simp only
  induction items generalizing d with
  | nil => rfl
  | cons r items ih =>
    obtain ⟨k, v⟩ := r
    have ih := ih (fun e he => h e (List.mem_cons_of_mem _ he))
    rw [List.foldlM_cons, sayRules]
    cases v with
    | str w =>
      simp only
      cases hk : pyIntAny k with
      | none =>
        have ht : c.takes (notInteger k) = true := by rw [keyText_eq]; exact h (k, .str w) (by simp) ((integerKey_none k).mp hk)
        simp only [if_pos ht, extract_none hk]
        exact ih d
      | some n =>
        simp only
        cases extractInformation k (replace w [0xad] []) d with
        | error e => rfl
        | ok d' => exact ih d'
    | _ => rfl

theorem sayRules_ok {c : Console} {rules : List (PyStr × PyStr)} {d d' : Tables Int} {m : List Message}
    (h : sayRules c (asItems rules) d = (m, .ok d')) : m = keyMessages rules := by
  induction rules generalizing d m with
  | nil => injection h with h _; rw [← h]; rfl
  | cons r rules ih =>
    unfold asItems at h ih
    rw [List.map_cons, sayRules] at h
    simp only at h
    cases hk : pyIntAny r.1 with
    | none =>
      simp only [hk] at h
      by_cases ht : c.takes (notInteger r.1) = true
      · rw [if_pos ht] at h
        injection h with h1 h2
        rw [keyMessages_cons_none hk, ← h1]
        congr 1
        exact ih (d := d) (Prod.ext rfl h2)
      · rw [if_neg ht] at h; injection h with _ h; cases h
    | some n =>
      simp only [hk] at h
      rw [keyMessages_cons_some hk]
      cases hx : extractInformation r.1 (replace r.2 [0xad] []) d with
      | error e => rw [hx] at h; injection h with _ h; cases h
      | ok d1 => rw [hx] at h; exact ih h

theorem sayRules_prefix (c : Console) (rules : List (PyStr × PyStr)) (d : Tables Int) :
    (sayRules c (asItems rules) d).1 <+: keyMessages rules := by
  induction rules generalizing d with
  | nil => exact List.nil_prefix
  | cons r rules ih =>
    unfold asItems at ih ⊢
    rw [List.map_cons, sayRules]
    simp only
    cases hk : pyIntAny r.1 with
    | none =>
      simp only
      rw [keyMessages_cons_none hk]
      by_cases ht : c.takes (notInteger r.1) = true
      · rw [if_pos ht]
        exact (List.prefix_cons_inj _).mpr (ih d)
      · rw [if_neg ht]; exact List.nil_prefix
    | some n =>
      simp only
      rw [keyMessages_cons_some hk]
      cases hx : extractInformation r.1 (replace r.2 [0xad] []) d with
      | error e => exact List.nil_prefix
      | ok d1 => exact ih d1

theorem sayRules_append (c : Console) (a b : List (PyStr × PyStr)) (d : Tables Int) :
    sayRules c (asItems (a ++ b)) d =
      match sayRules c (asItems a) d with
      | (m, .ok d') => (m ++ (sayRules c (asItems b) d').1, (sayRules c (asItems b) d').2)
      | (m, .error e) => (m, .error e) := by
  induction a generalizing d with
  | nil => rfl
  | cons r a ih =>
    unfold asItems at ih ⊢
    rw [List.cons_append, List.map_cons, List.map_cons, sayRules, sayRules]
    simp only
    cases hk : pyIntAny r.1 with
    | none =>
      simp only
      by_cases ht : c.takes (notInteger r.1) = true
      · rw [if_pos ht, if_pos ht, ih]
        generalize sayRules c (a.map (fun r => (r.1, Json.str r.2))) d = y
        rcases y with ⟨m, x⟩
        cases x <;> rfl
      · rw [if_neg ht, if_neg ht]
    | some n =>
      simp only
      cases hx : extractInformation r.1 (replace r.2 [0xad] []) d with
      | error e => rfl
      | ok d1 => exact ih d1

/-! ## All sets -/

theorem saySets_same {c : Console} {members : List (PyStr × Json)}
    (h : ∀ name items key v, (name, Json.obj items) ∈ members → UsedSet name → (key, v) ∈ items → ¬ IntegerKey key → c.takes (keyText key) = true)
    (d : Tables Int) : (saySets c members d).2 =
      members.foldlM (fun d s => if isValid s.1 then extractRulesJson s.2 d else (return d : FRes (Tables Int))) d := by
  induction members generalizing d with
  | nil => rfl
  | cons s members ih =>
    obtain ⟨name, v⟩ := s
    have ih := ih (fun name items key v h1 => h name items key v (List.mem_cons_of_mem _ h1))
    rw [List.foldlM_cons, saySets]
    simp only
    by_cases hv : isValid name = true
    · rw [if_pos hv, if_pos hv]
      cases v with
      | obj items =>
        simp only
        have hs := sayRules_same (c := c) (items := items)
          (fun e he hk => h name items e.1 e.2 (by simp) ((isValid_iff name).mp hv) he hk) d
        generalize sayRules c items d = y at hs ⊢
        rcases y with ⟨m, x⟩
        have hs : x = _ := hs
        subst hs
        cases extractRulesJson (.obj items) d with
        | error e => rfl
        | ok d' => exact ih d'
      | _ => rfl
    · rw [if_neg hv, if_neg hv]
      exact ih d

theorem saySets_flat (c : Console) {members : List (PyStr × Json)} {sets : RuleSets} (h : RuleSetsOf members sets) (d : Tables Int) :
    saySets c members d = sayRules c (asItems (usedRules sets)) d := by
  induction h generalizing d with
  | nil => rfl
  | @used name rules t sets hu _ ih =>
    rw [saySets]
    simp only
    have hur : usedRules ((name, rules) :: sets) = rules ++ usedRules sets := by
      unfold usedRules
      rw [List.filter_cons_of_pos (by simpa using hu), List.flatMap_cons]
    rw [if_pos ((isValid_iff name).mpr hu), hur, sayRules_append]
    show (match sayRules c (asItems rules) d with | (m, .ok d') => _ | (m, .error e) => _) = _
    rcases sayRules c (asItems rules) d with ⟨m, x⟩
    cases x with
    | error e => rfl
    | ok d' => simp only [ih]
  | @unused name v t sets hu _ ih =>
    have hv : ¬ isValid name = true := fun h => hu ((isValid_iff name).mp h)
    rw [saySets, if_neg hv, ih]
    have hur : usedRules ((name, []) :: sets) = usedRules sets := by
      unfold usedRules
      rw [List.filter_cons_of_neg (by simpa using hu)]
    rw [hur]

/-- Rules that can be read are strings. -/
theorem sayRules_strings {c : Console} {items : List (PyStr × Json)} {d d' : Tables Int} {m : List Message}
    (h : sayRules c items d = (m, .ok d')) : ∃ rules, items = asItems rules := by
  induction items generalizing d m with
  | nil => exact ⟨[], rfl⟩
  | cons r items ih =>
    obtain ⟨k, v⟩ := r
    rw [sayRules] at h
    cases v with
    | str w =>
      simp only at h
      have key : ∃ rules, items = asItems rules := by
        cases hk : pyIntAny k with
        | none =>
          simp only [hk] at h
          by_cases ht : c.takes (notInteger k) = true
          · rw [if_pos ht] at h
            injection h with _ h
            exact ih (d := d) (Prod.ext rfl h)
          · rw [if_neg ht] at h; injection h with _ h; cases h
        | some n =>
          simp only [hk] at h
          cases hx : extractInformation k (replace w [0xad] []) d with
          | error e => rw [hx] at h; injection h with _ h; cases h
          | ok d1 => rw [hx] at h; exact ih h
      obtain ⟨rules, rfl⟩ := key
      exact ⟨(k, w) :: rules, rfl⟩
    | _ => injection h with _ h; cases h

theorem saySets_ok {c : Console} {members : List (PyStr × Json)} {d d' : Tables Int} {m : List Message}
    (h : saySets c members d = (m, .ok d')) : ∃ sets, RuleSetsOf members sets := by
  induction members generalizing d m with
  | nil => exact ⟨[], .nil⟩
  | cons s members ih =>
    obtain ⟨name, v⟩ := s
    rw [saySets] at h
    simp only at h
    by_cases hv : isValid name = true
    · rw [if_pos hv] at h
      cases v with
      | obj items =>
        simp only at h
        rcases hx : sayRules c items d with ⟨m1, x⟩
        cases x with
        | error e => rw [hx] at h; injection h with _ h; cases h
        | ok d1 =>
          rw [hx] at h
          injection h with _ h
          obtain ⟨sets, hs⟩ := ih (d := d1) (Prod.ext rfl h)
          obtain ⟨rules, rfl⟩ := sayRules_strings hx
          exact ⟨_, .used ((isValid_iff name).mp hv) hs⟩
      | _ => injection h with _ h; cases h
    · rw [if_neg hv] at h
      obtain ⟨sets, hs⟩ := ih h
      exact ⟨_, .unused (fun hu => hv ((isValid_iff name).mpr hu)) hs⟩

/-! ## One language -/

theorem sayExtract_same {c : Console} {f : LangBytes} (h : Audible c f) {data v : Json} (h1 : JsonFile f.source data) (h2 : SpelloutRules data v) :
    (sayExtract c v).2 = extractJson v := by
  unfold sayExtract extractJson
  cases v with
  | obj members => exact saySets_same (fun name items key v => h data members name items key v h1 h2) _
  | _ => rfl

theorem sayText_same {c : Console} {f : LangBytes} (h : Audible c f) : (sayText c f).2 = newTextBytes f := by
  unfold sayText newTextBytes
  by_cases hs : SKIPPED_FILES.elem f.name = true
  · rw [if_pos hs, if_pos hs]; rfl
  · rw [if_neg hs, if_neg hs]
    simp only [bind, Except.bind]
    cases hr : readJson f.source with
    | error e => rfl
    | ok data =>
      simp only
      cases hq : requisiteData data with
      | error e => rfl
      | ok o =>
        cases o with
        | none => rfl
        | some v =>
          simp only
          have he := sayExtract_same h ((readJson_iff _ _).mp hr) ((requisite_some _ _).mp hq)
          generalize sayExtract c v = y at he ⊢
          rcases y with ⟨m, x⟩
          have he : x = _ := he
          subst he
          cases extractJson v with
          | error e => rfl
          | ok d =>
            simp only
            cases f.supplementary with
            | none => rfl
            | some b =>
              simp only
              cases readJson b with
              | error e => rfl
              | ok data' =>
                simp only
                cases mergeText d data' <;> rfl

theorem sayOne_same {c : Console} {f : LangBytes} (h : Audible c f) (T : Table Bytes) : (sayOne c f T).2 = writeOneBytes f T := by
  have ht := sayText_same h
  unfold sayOne writeOneBytes
  rw [← ht]
  rcases sayText c f with ⟨m, x⟩
  cases x with
  | error e => rfl
  | ok o =>
    cases o with
    | none => rfl
    | some text =>
      simp only
      cases utf8Encode text <;> rfl

theorem sayAll_same {c : Console} {fs : List LangBytes} (h : ∀ f ∈ fs, Audible c f) (T : Table Bytes) :
    (sayAll c fs T).2 = writeAllBytes fs T := by
  induction fs generalizing T with
  | nil => rfl
  | cons f fs ih =>
    have h1 := sayOne_same (h f (by simp)) T
    have ih := ih (fun g hg => h g (List.mem_cons_of_mem _ hg))
    rw [sayAll, writeAllBytes, ← h1]
    rcases sayOne c f T with ⟨m, T', o⟩
    cases o with
    | none => exact ih T'
    | some e => rfl

theorem sayScale_some {name : PyStr} {data : Json} {b : Bool} (h : Entry data u!"USE_LONG_SCALE" (.bool b)) : sayScale name data = [] := by
  unfold sayScale
  rw [(jget_ok _ _ _).mpr h]

theorem sayScale_none {name : PyStr} {data : Json} (h : Lacks data u!"USE_LONG_SCALE") : sayScale name data = [noScaleEntry name] := by
  unfold sayScale
  rw [(jget_key _ _).mpr h]
  rfl

/-- Without exception, the messages are those of the specification. -/
theorem sayText_ok {c : Console} {f : LangBytes} (hu : Usual f) {m : List Message} {o : Option PyStr} (h : sayText c f = (m, .ok o)) : Says f m := by
  unfold sayText at h
  by_cases hs : SpecialName f.name
  · rw [if_pos ((skipped_special _).mpr hs)] at h
    injection h with h _
    subst h
    exact .special hs
  · rw [if_neg (fun h => hs ((skipped_special _).mp h))] at h
    cases hr : readJson f.source with
    | error e => rw [hr] at h; injection h with _ h; cases h
    | ok data =>
      rw [hr] at h
      simp only at h
      have hj := (readJson_iff _ _).mp hr
      cases hq : requisiteData data with
      | error e => rw [hq] at h; injection h with _ h; cases h
      | ok r =>
        rw [hq] at h
        cases r with
        | none =>
          injection h with h _
          subst h
          exact .noRules hs hj ((requisite_none _).mp hq)
        | some v =>
          simp only at h
          have hv := (requisite_some _ _).mp hq
          rcases hx : sayExtract c v with ⟨m1, x⟩
          cases x with
          | error e => rw [hx] at h; injection h with _ h; cases h
          | ok d =>
            rw [hx] at h
            simp only at h
            cases hf : f.supplementary with
            | none => rw [hf] at h; injection h with _ h; cases h
            | some b =>
              rw [hf] at h
              simp only at h
              cases hb : readJson b with
              | error e => rw [hb] at h; injection h with _ h; cases h
              | ok data' =>
                rw [hb] at h
                simp only at h
                have hj' := (readJson_iff _ _).mp hb
                cases hm : mergeText d data' with
                | error e => rw [hm] at h; injection h with _ h; cases h
                | ok text =>
                  rw [hm] at h
                  injection h with h _
                  subst h
                  obtain ⟨out, hm, _⟩ := mergeText_usual (hu b data' hf hj') hm
                  obtain ⟨supp, hsupp, _⟩ := mergeJson_ok hm
                  cases v with
                  | obj members =>
                    have hx : saySets c members Tables.empty = (m1, .ok d) := hx
                    obtain ⟨sets, hsets⟩ := saySets_ok hx
                    rw [saySets_flat c hsets] at hx
                    have hmm := sayRules_ok hx
                    subst hmm
                    have hh : Holds f sets supp := ⟨data, members, b, data', hj, hv, hsets, hf, hj', hsupp⟩
                    cases hl : supp.useLongScale with
                    | some l =>
                      have h3 := hsupp.2.2
                      rw [hl] at h3
                      rw [sayScale_some h3, List.append_nil]
                      exact .scaled hs hh hl
                    | none =>
                      have h3 := hsupp.2.2
                      rw [hl] at h3
                      rw [sayScale_none h3]
                      exact .unscaled hs hh hl
                  | _ => injection hx with _ hx; cases hx

theorem sayOne_ok {c : Console} {f : LangBytes} (hu : Usual f) {T T' : Table Bytes} {m : List Message} (h : sayOne c f T = (m, T', none)) :
    Says f m := by
  unfold sayOne at h
  rcases hx : sayText c f with ⟨m1, x⟩
  rw [hx] at h
  cases x with
  | error e => injection h with _ h; injection h with _ h; cases h
  | ok o =>
    have key := sayText_ok hu hx
    cases o with
    | none => injection h with h _; subst h; exact key
    | some text =>
      simp only at h
      cases he : utf8Encode text with
      | none => rw [he] at h; injection h with _ h; injection h with _ h; cases h
      | some b => rw [he] at h; injection h with h _; subst h; exact key

theorem sayAll_ok {c : Console} {fs : List LangBytes} (hu : ∀ f ∈ fs, Usual f) {T : Table Bytes} (h : (sayAll c fs T).2.2 = none) :
    SaysAll fs (sayAll c fs T).1 := by
  induction fs generalizing T with
  | nil => exact .nil
  | cons f fs ih =>
    rw [sayAll] at h ⊢
    rcases hx : sayOne c f T with ⟨m, T', o⟩
    rw [hx] at h
    cases o with
    | none =>
      exact .cons (sayOne_ok (hu f (by simp)) hx) (ih (fun g hg => hu g (List.mem_cons_of_mem _ hg)) h)
    | some e => cases h

/-- With an exception: the messages of the files before, and a part of those of the failing file. -/
theorem sayAll_error {c : Console} {fs : List LangBytes} (hu : ∀ f ∈ fs, Usual f) {T : Table Bytes} {e : FileErr}
    (h : (sayAll c fs T).2.2 = some e) :
    ∃ before f after ms, fs = before ++ f :: after ∧ SaysAll before ms ∧
      (sayAll c before T).2.2 = none ∧ (sayAll c fs T).1 = ms ++ (sayOne c f (sayAll c before T).2.1).1 ∧
      (sayAll c fs T).2 = (sayOne c f (sayAll c before T).2.1).2 := by
  induction fs generalizing T with
  | nil => cases h
  | cons f fs ih =>
    rw [sayAll] at h ⊢
    rcases hx : sayOne c f T with ⟨m, T', o⟩
    rw [hx] at h
    cases o with
    | some e' => exact ⟨[], f, fs, [], rfl, .nil, rfl, by simp only [sayAll, hx, List.nil_append], by simp only [sayAll, hx]⟩
    | none =>
      simp only at h
      obtain ⟨a, g, b, ms, rfl, h1, h2, h3, h4⟩ := ih (fun g hg => hu g (List.mem_cons_of_mem _ hg)) h
      refine ⟨f :: a, g, b, m ++ ms, rfl, .cons (sayOne_ok (hu f (by simp)) hx) h1, ?_, ?_, ?_⟩
      · simp only [sayAll, hx]; exact h2
      · simp only [sayAll, hx]; rw [h3, List.append_assoc]
      · simp only [sayAll, hx]; exact h4

/-- What is said about one language is always a beginning of what could be said. -/
theorem sayText_prefix (c : Console) {f : LangBytes} {data : Json} {members : List (PyStr × Json)} {sets : RuleSets}
    (hs : ¬ SpecialName f.name) (h1 : JsonFile f.source data) (h2 : SpelloutRules data (.obj members)) (h3 : RuleSetsOf members sets) :
    (sayText c f).1 <+: keyMessages (usedRules sets) ++ [noScaleEntry f.name] := by
  unfold sayText
  rw [if_neg (fun h => hs ((skipped_special _).mp h)), (readJson_iff _ _).mpr h1]
  simp only [(requisite_some _ _).mpr h2]
  have he : sayExtract c (.obj members) = sayRules c (asItems (usedRules sets)) Tables.empty := saySets_flat c h3 _
  rw [he]
  have hp := sayRules_prefix c (usedRules sets) Tables.empty
  have hp' : (sayRules c (asItems (usedRules sets)) Tables.empty).1 <+: keyMessages (usedRules sets) ++ [noScaleEntry f.name] :=
    hp.trans (List.prefix_append _ _)
  rcases hx : sayRules c (asItems (usedRules sets)) Tables.empty with ⟨m, x⟩
  rw [hx] at hp'
  cases x with
  | error e => exact hp'
  | ok d =>
    simp only
    cases f.supplementary with
    | none => exact hp'
    | some b =>
      simp only
      cases readJson b with
      | error e => exact hp'
      | ok data' =>
        simp only
        cases mergeText d data' with
        | error e => exact hp'
        | ok text =>
          simp only
          rw [sayRules_ok hx]
          unfold sayScale
          split
          · exact List.prefix_rfl
          · rw [List.append_nil]; exact List.prefix_append _ _

theorem sayOne_messages (c : Console) (f : LangBytes) (T : Table Bytes) : (sayOne c f T).1 = (sayText c f).1 := by
  unfold sayOne
  rcases sayText c f with ⟨m, x⟩
  cases x with
  | error e => rfl
  | ok o =>
    cases o with
    | none => rfl
    | some text =>
      simp only
      cases utf8Encode text <;> rfl

/-- All rules before can be read and their messages are taken. -/
theorem sayRules_taken {c : Console} {rules : List (PyStr × PyStr)} (h : ∀ r ∈ rules, ¬ RuleFails r.1 r.2 ∧ (IntegerKey r.1 ∨ c.takes (keyText r.1) = true))
    (d : Tables Int) : ∃ d', sayRules c (asItems rules) d = (keyMessages rules, .ok d') := by
  have h1 : (sayRules c (asItems rules) d).2 = liftGen (rules.foldlM ruleStep d) := by
    rw [sayRules_same]
    · exact extractRulesJson_str rules d
    · intro e he hk
      obtain ⟨r, hr, rfl⟩ := List.mem_map.mp he
      rcases (h r hr).2 with h | h
      · exact absurd h hk
      · exact h
  obtain ⟨d', hd⟩ := (foldlM_error rules d).mpr (fun r hr => fun hf => (h r hr).1 ((ruleFails_iff _ _).mpr hf))
  refine ⟨d', ?_⟩
  rcases hx : sayRules c (asItems rules) d with ⟨m, x⟩
  rw [hx, hd] at h1
  have h1 : x = .ok d' := h1
  subst h1
  rw [sayRules_ok hx]

theorem sayText_refused {c : Console} {f : LangBytes} {data : Json} {members : List (PyStr × Json)} {sets : RuleSets}
    (hs : ¬ SpecialName f.name) (h1 : JsonFile f.source data) (h2 : SpelloutRules data (.obj members)) (h3 : RuleSetsOf members sets)
    {before after : List (PyStr × PyStr)} {r : PyStr × PyStr} (hr : usedRules sets = before ++ r :: after)
    (hb : ∀ x ∈ before, ¬ RuleFails x.1 x.2 ∧ (IntegerKey x.1 ∨ c.takes (keyText x.1) = true)) (hk : ¬ IntegerKey r.1)
    (ht : c.takes (keyText r.1) = false) : sayText c f = (keyMessages before, .error .encode) := by
  unfold sayText
  rw [if_neg (fun h => hs ((skipped_special _).mp h)), (readJson_iff _ _).mpr h1]
  simp only [(requisite_some _ _).mpr h2]
  have he : sayExtract c (.obj members) = sayRules c (asItems (usedRules sets)) Tables.empty := saySets_flat c h3 _
  obtain ⟨d', hd⟩ := sayRules_taken hb Tables.empty
  have hl : sayRules c (asItems (r :: after)) d' = ([], .error .encode) := by
    unfold asItems
    rw [List.map_cons, sayRules]
    simp only [(integerKey_none _).mpr hk, keyText_eq, ht]
    rfl
  rw [he, hr, sayRules_append, hd]
  simp only [hl, List.append_nil]

end NumberParser
