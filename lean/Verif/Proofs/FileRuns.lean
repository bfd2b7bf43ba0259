import Verif.Proofs.Files

/-! # Runs of the generator over directories, on the level of bytes -/

namespace NumberParser

open Gen Spec

theorem moduleBytes_unique {f : LangBytes} {b b' : Bytes} (h : ModuleBytes f b) (h' : ModuleBytes f b') : b = b' := by
  obtain ⟨t, h1, h2⟩ := h
  obtain ⟨t', h1', h2'⟩ := h'
  have := moduleOf_unique h1 h1'
  subst this
  exact utf8_bytes_unique h2 h2'

theorem encode_none (s : PyStr) : utf8Encode s = none ↔ Unencodable s := by
  unfold Unencodable
  cases h : utf8Encode s with
  | none =>
    refine ⟨fun _ => ?_, fun _ => rfl⟩
    rintro ⟨b, hb⟩
    rw [(utf8Encode_iff s b).mpr hb] at h; cases h
  | some b => exact ⟨fun h => (by cases h), fun hn => absurd ⟨b, (utf8Encode_iff s b).mp h⟩ hn⟩

/-- The four things that can happen for one language -/
theorem writeOne_cases (f : LangBytes) (hu : Usual f) (T : Table Bytes) :
    (LeftOutBytes f ∧ writeOneBytes f T = (T, none)) ∨
    (∃ b, ModuleBytes f b ∧ writeOneBytes f T = (Table.set T (targetName f.name) b, none)) ∨
    (∃ text, ModuleOf f text ∧ Unencodable text ∧ writeOneBytes f T = (Table.set T (targetName f.name) [], some .encode)) ∨
    (FailsBytes f ∧ (¬ ∃ text, ModuleOf f text) ∧ ∃ e, newTextBytes f = .error e ∧ writeOneBytes f T = (T, some e)) := by
  cases h : newTextBytes f with
  | error e =>
    refine .inr (.inr (.inr ⟨⟨?_, ?_⟩, ?_, e, rfl, ?_⟩))
    · intro h'; rw [(newTextBytes_none f).mpr h'] at h; cases h
    · rintro ⟨b, t, h', _⟩; rw [newTextBytes_of f t h'] at h; cases h
    · rintro ⟨t, h'⟩; rw [newTextBytes_of f t h'] at h; cases h
    · unfold writeOneBytes; rw [h]
  | ok o =>
    cases o with
    | none => exact .inl ⟨(newTextBytes_none f).mp h, by unfold writeOneBytes; rw [h]⟩
    | some text =>
      have hm := (newTextBytes_some f hu text).mp h
      cases he : utf8Encode text with
      | none =>
        refine .inr (.inr (.inl ⟨text, hm, (encode_none text).mp he, ?_⟩))
        unfold writeOneBytes; rw [h]; simp only; rw [he]
      | some b =>
        refine .inr (.inl ⟨b, ⟨text, hm, (utf8Encode_iff text b).mp he⟩, ?_⟩)
        unfold writeOneBytes; rw [h]; simp only; rw [he]

theorem unencodable_fails {f : LangBytes} {text : PyStr} (h : ModuleOf f text) (hu : Unencodable text) : FailsBytes f := by
  refine ⟨not_leftOut_module h, ?_⟩
  rintro ⟨b, t, h', hb⟩
  have := moduleOf_unique h h'
  subst this
  exact hu ⟨b, hb⟩

theorem writeOne_fails (f : LangBytes) (hu : Usual f) (T : Table Bytes) : (∃ e, (writeOneBytes f T).2 = some e) ↔ FailsBytes f := by
  rcases writeOne_cases f hu T with ⟨h, e⟩ | ⟨b, h, e⟩ | ⟨t, h, hu, e⟩ | ⟨h, _, x, _, e⟩
  · rw [e]; exact ⟨fun ⟨_, h⟩ => (by cases h), fun hf => absurd h hf.1⟩
  · rw [e]; exact ⟨fun ⟨_, h⟩ => (by cases h), fun hf => absurd ⟨b, h⟩ hf.2⟩
  · rw [e]; exact ⟨fun _ => unencodable_fails h hu, fun _ => ⟨_, rfl⟩⟩
  · rw [e]; exact ⟨fun _ => h, fun _ => ⟨_, rfl⟩⟩

theorem writeOne_other (f : LangBytes) (T : Table Bytes) (name : PyStr) (h : targetName f.name ≠ name) :
    Table.get? (writeOneBytes f T).1 name = Table.get? T name := by
  have hs : ∀ b, Table.get? (Table.set T (targetName f.name) b) name = Table.get? T name := by
    intro b; rw [Table.get?_set, if_neg h]
  unfold writeOneBytes
  cases newTextBytes f with
  | error e => rfl
  | ok o =>
    cases o with
    | none => rfl
    | some text =>
      simp only
      cases utf8Encode text with
      | none => exact hs _
      | some b => exact hs _

theorem writeAll_cons_ok {f : LangBytes} {fs : List LangBytes} {T T' : Table Bytes} (h : writeOneBytes f T = (T', none)) :
    writeAllBytes (f :: fs) T = writeAllBytes fs T' := by
  rw [writeAllBytes, h]

theorem writeAll_cons_error {f : LangBytes} {fs : List LangBytes} {T T' : Table Bytes} {e : FileErr} (h : writeOneBytes f T = (T', some e)) :
    writeAllBytes (f :: fs) T = (T', some e) := by
  rw [writeAllBytes, h]

theorem runBytes_success (fs : List LangBytes) (hu : ∀ f ∈ fs, Usual f) (T : Table Bytes) : (writeAllBytes fs T).2 = none ↔ ∀ f ∈ fs, ¬ FailsBytes f := by
  induction fs generalizing T with
  | nil => exact ⟨fun _ f h => (by cases h), fun _ => rfl⟩
  | cons f fs ih =>
    rcases hw : writeOneBytes f T with ⟨T', o⟩
    cases o with
    | none =>
      rw [writeAll_cons_ok hw, ih (fun g hg => hu g (List.mem_cons_of_mem _ hg))]
      have hf : ¬ FailsBytes f := by
        intro h
        obtain ⟨e, he⟩ := (writeOne_fails f (hu f (by simp)) T).mpr h
        rw [hw] at he; cases he
      simp [hf]
    | some e =>
      rw [writeAll_cons_error hw]
      have hf : FailsBytes f := (writeOne_fails f (hu f (by simp)) T).mp ⟨e, by rw [hw]⟩
      exact ⟨fun h => (by cases h), fun h => absurd hf (h f (by simp))⟩

/-- The run up to the first failing file -/
theorem runBytes_error {fs : List LangBytes} (hu : ∀ f ∈ fs, Usual f) {T : Table Bytes} {e : FileErr} (h : (writeAllBytes fs T).2 = some e) :
    ∃ before f after, fs = before ++ f :: after ∧ (∀ g ∈ before, ¬ FailsBytes g) ∧ FailsBytes f ∧
      writeAllBytes fs T = writeOneBytes f (writeAllBytes before T).1 ∧ (writeOneBytes f (writeAllBytes before T).1).2 = some e := by
  induction fs generalizing T with
  | nil => cases h
  | cons f fs ih =>
    rcases hw : writeOneBytes f T with ⟨T', o⟩
    cases o with
    | none =>
      rw [writeAll_cons_ok hw] at h
      obtain ⟨a, g, b, rfl, h1, h2, h3, h4⟩ := ih (fun g hg => hu g (List.mem_cons_of_mem _ hg)) h
      have hf : ¬ FailsBytes f := by
        intro h
        obtain ⟨e, he⟩ := (writeOne_fails f (hu f (by simp)) T).mpr h
        rw [hw] at he; cases he
      refine ⟨f :: a, g, b, rfl, ?_, h2, ?_, ?_⟩
      · intro x hx
        rcases List.mem_cons.mp hx with rfl | hx
        · exact hf
        · exact h1 x hx
      · rw [writeAll_cons_ok hw, writeAll_cons_ok hw]; exact h3
      · rw [writeAll_cons_ok hw]; exact h4
    | some e' =>
      rw [writeAll_cons_error hw] at h
      refine ⟨[], f, fs, rfl, (fun _ h => by cases h), (writeOne_fails f (hu f (by simp)) T).mp ⟨e', by rw [hw]⟩, ?_, ?_⟩
      · rw [writeAll_cons_error hw]; exact hw.symm
      · rw [writeAllBytes, hw]; exact h

/-- Targets of no source file are not touched. -/
theorem runBytes_other (fs : List LangBytes) (T : Table Bytes) (name : PyStr)
    (h : ∀ f ∈ fs, targetName f.name = name → LeftOutBytes f) : Table.get? (writeAllBytes fs T).1 name = Table.get? T name := by
  induction fs generalizing T with
  | nil => rfl
  | cons f fs ih =>
    have h1 : Table.get? (writeOneBytes f T).1 name = Table.get? T name := by
      by_cases hn : targetName f.name = name
      · have hl := h f (by simp) hn
        unfold writeOneBytes
        rw [(newTextBytes_none f).mpr hl]
      · exact writeOne_other f T name hn
    rcases hw : writeOneBytes f T with ⟨T', o⟩
    rw [hw] at h1
    cases o with
    | none => rw [writeAll_cons_ok hw, ih _ (fun g hg => h g (List.mem_cons_of_mem _ hg))]; exact h1
    | some e => rw [writeAll_cons_error hw]; exact h1

/-- A module that is complete stays complete. -/
theorem runBytes_module {fs : List LangBytes} (hu : ∀ f ∈ fs, Usual f) {T : Table Bytes} (hd : DistinctTargetsBytes fs) (hs : (writeAllBytes fs T).2 = none)
    {f : LangBytes} (hf : f ∈ fs) {b : Bytes} (hb : ModuleBytes f b) : Table.get? (writeAllBytes fs T).1 (targetName f.name) = some b := by
  induction fs generalizing T with
  | nil => cases hf
  | cons g fs ih =>
    unfold DistinctTargetsBytes at hd
    rw [List.map_cons, List.nodup_cons] at hd
    rcases hw : writeOneBytes g T with ⟨T', o⟩
    cases o with
    | some e => rw [writeAll_cons_error hw] at hs; cases hs
    | none =>
      rw [writeAll_cons_ok hw] at hs ⊢
      rcases List.mem_cons.mp hf with rfl | hf
      · rw [runBytes_other]
        · rcases writeOne_cases f (hu f (by simp)) T with ⟨h, _⟩ | ⟨b', h, e⟩ | ⟨t, h, hu, e⟩ | ⟨h, _, x, _, e⟩
          · obtain ⟨t, ht, _⟩ := hb; exact absurd h (not_leftOut_module ht)
          · rw [hw] at e
            injection e with e _
            rw [e, Table.get?_set, if_pos rfl, moduleBytes_unique h hb]
          · rw [hw] at e; injection e with _ e; cases e
          · rw [hw] at e; injection e with _ e; cases e
        · intro g hg hn
          exact absurd (List.mem_map.mpr ⟨g, hg, hn⟩) hd.1
      · exact ih (fun g hg => hu g (List.mem_cons_of_mem _ hg)) hd.2 hs hf

/-- At the end of a run without exception each target is as before, or one of the modules. -/
theorem runBytes_targets {fs : List LangBytes} (hu : ∀ f ∈ fs, Usual f) {T : Table Bytes} (hs : (writeAllBytes fs T).2 = none) (name : PyStr) :
    Table.get? (writeAllBytes fs T).1 name = Table.get? T name ∨
      ∃ f ∈ fs, targetName f.name = name ∧ ∃ b, ModuleBytes f b ∧ Table.get? (writeAllBytes fs T).1 name = some b := by
  induction fs generalizing T with
  | nil => exact .inl rfl
  | cons f fs ih =>
    rcases hw : writeOneBytes f T with ⟨T', o⟩
    cases o with
    | some e => rw [writeAll_cons_error hw] at hs; cases hs
    | none =>
      rw [writeAll_cons_ok hw] at hs ⊢
      rcases ih (fun g hg => hu g (List.mem_cons_of_mem _ hg)) hs with h | ⟨g, hg, hn, hb⟩
      · rw [h]
        rcases writeOne_cases f (hu f (by simp)) T with ⟨_, e⟩ | ⟨b', hm, e⟩ | ⟨t, _, _, e⟩ | ⟨_, _, x, _, e⟩ <;> rw [hw] at e <;> injection e with e1 e2
        · subst e1; exact .inl rfl
        · subst e1
          by_cases hn : targetName f.name = name
          · subst hn
            exact .inr ⟨f, by simp, rfl, b', hm, by rw [Table.get?_set, if_pos rfl]⟩
          · left; rw [Table.get?_set, if_neg hn]
        · cases e2
        · cases e2
      · exact .inr ⟨g, List.mem_cons_of_mem _ hg, hn, hb⟩

/-- At any moment of a run each target is as before, or one of the modules; but one may be a beginning of its module. -/
theorem visibleBytes_targets {fs : List LangBytes} (hu : ∀ f ∈ fs, Usual f) {T S : Table Bytes} (h : VisibleBytes fs T S) :
    ∃ broken : Option PyStr, ∀ name,
      (Table.get? S name = Table.get? T name ∨ ∃ f ∈ fs, targetName f.name = name ∧ ∃ b, ModuleBytes f b ∧ Table.get? S name = some b) ∨
      (broken = some name ∧ ∃ f ∈ fs, targetName f.name = name ∧ ∃ part, Table.get? S name = some part ∧
        (part = [] ∨ ∃ b, ModuleBytes f b ∧ part <+: b)) := by
  induction h with
  | here fs T => exact ⟨none, fun name => .inl (.inl rfl)⟩
  | during f fs T text b part h1 h2 h3 =>
    refine ⟨some (targetName f.name), fun name => ?_⟩
    by_cases hn : targetName f.name = name
    · subst hn
      exact .inr ⟨rfl, f, by simp, rfl, part, by rw [Table.get?_set, if_pos rfl],
        .inr ⟨b, ⟨text, (newTextBytes_some f (hu f (by simp)) text).mp h1, (utf8Encode_iff text b).mp h2⟩, h3⟩⟩
    · left; left; rw [Table.get?_set, if_neg hn]
  | truncated f fs T text h1 h2 =>
    refine ⟨some (targetName f.name), fun name => ?_⟩
    by_cases hn : targetName f.name = name
    · subst hn
      exact .inr ⟨rfl, f, by simp, rfl, [], by rw [Table.get?_set, if_pos rfl], .inl rfl⟩
    · left; left; rw [Table.get?_set, if_neg hn]
  | later f fs T T' T'' h1 _ ih =>
    obtain ⟨broken, ih⟩ := ih (fun g hg => hu g (List.mem_cons_of_mem _ hg))
    refine ⟨broken, fun name => ?_⟩
    rcases ih name with (h | ⟨g, hg, hn, hb⟩) | ⟨h2, g, hg, hn, hb⟩
    · left
      rw [h]
      rcases writeOne_cases f (hu f (by simp)) T with ⟨_, e⟩ | ⟨b', hm, e⟩ | ⟨t, _, _, e⟩ | ⟨_, _, x, _, e⟩ <;> rw [h1] at e <;> injection e with e1 e2
      · subst e1; exact .inl rfl
      · subst e1
        by_cases hn : targetName f.name = name
        · subst hn
          exact .inr ⟨f, by simp, rfl, b', hm, by rw [Table.get?_set, if_pos rfl]⟩
        · left; rw [Table.get?_set, if_neg hn]
      · cases e2
      · cases e2
    · exact .inl (.inr ⟨g, List.mem_cons_of_mem _ hg, hn, hb⟩)
    · exact .inr ⟨h2, g, List.mem_cons_of_mem _ hg, hn, hb⟩

/-! ## No word occurs twice in a table -/

theorem dictionary_keys (ms : List (PyStr × Json)) : (Table.keys (dictionary ms)).Nodup := by
  unfold dictionary
  exact Table.foldl_set_nodup (fun m : PyStr × Json => m.2) (fun m => m.1) ms [] List.nodup_nil

theorem dictionary_mem {ms : List (PyStr × Json)} {e : PyStr × Json} (h : e ∈ dictionary ms) : e ∈ ms := by
  unfold dictionary at h
  have gen : ∀ (ms : List (PyStr × Json)) (d : List (PyStr × Json)),
      e ∈ ms.foldl (fun d m => Table.set d m.1 m.2) d → e ∈ ms ∨ e ∈ d := by
    intro ms
    induction ms with
    | nil => intro d h; exact .inr h
    | cons m ms ih =>
      intro d h
      rw [List.foldl_cons] at h
      rcases ih _ h with h | h
      · exact .inl (List.mem_cons_of_mem _ h)
      · rcases Table.mem_set h with rfl | h
        · exact .inl (by simp)
        · exact .inr h
  rcases gen ms [] h with h | h
  · exact h
  · cases h

theorem members_value {t : PyStr} {ms : List (PyStr × Json)} (h : JsonMembers t ms) {e : PyStr × Json} (he : e ∈ ms) :
    ∃ t', JsonValue t' e.2 := by
  induction ms generalizing t with
  | nil => cases h
  | cons m ms ih =>
    cases h with
    | one _ _ _ _ hv _ =>
      simp only [List.mem_cons, List.not_mem_nil, or_false] at he
      subst he
      exact ⟨_, hv⟩
    | more _ _ _ _ hv _ hr =>
      rcases List.mem_cons.mp he with rfl | he
      · exact ⟨_, hv⟩
      · exact ih hr he

theorem value_obj {t : PyStr} {v : Json} (h : JsonValue t v) (members : List (PyStr × Json)) (hv : v = .obj members) :
    (Table.keys members).Nodup ∧ ∀ e ∈ members, ∃ t', JsonValue t' e.2 := by
  cases h with
  | emptyObject => injection hv with hv; subst hv; exact ⟨List.nodup_nil, fun _ h => nomatch h⟩
  | object hm =>
    injection hv with hv
    subst hv
    exact ⟨dictionary_keys _, fun e he => members_value hm (dictionary_mem he)⟩
  | number hn => cases hn <;> cases hv
  | _ => cases hv

theorem numbersOf_keys {m : List (PyStr × Json)} {t : Table JNum} (h : NumbersOf m t) : Table.keys t = Table.keys m := by
  induction h with
  | nil => rfl
  | cons _ _ ih => simp only [Table.keys, List.map_cons] at ih ⊢; rw [ih]

theorem supplementary_distinct {b : Bytes} {data : Json} {supp : Supplementary} (h : JsonFile b data) (hs : SupplementaryOf data supp)
    (t : TableName) : ((theTable supp.tables t).map (fun e => e.1)).Nodup := by
  obtain ⟨members, ⟨a, c, rfl, _⟩, hn⟩ := hs.1 t
  obtain ⟨s, _, _, t', _, _, hv, _, _⟩ := h
  obtain ⟨_, h2⟩ := value_obj hv _ rfl
  obtain ⟨t'', hv'⟩ := h2 (tableKey t, .obj members) (by simp)
  have := (value_obj hv' members rfl).1
  rw [← numbersOf_keys hn] at this
  exact this

end NumberParser
