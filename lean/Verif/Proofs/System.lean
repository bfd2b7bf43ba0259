import Verif.Spec.System
import Verif.Proofs.FileRuns

/-! The generator when the operating system fails. -/

namespace NumberParser

open Gen Spec

/-- Reading without failures -/
theorem textUnder_ok {q : Faults} {f : LangBytes} {o : Option PyStr} (h : textUnder q f = .ok o) : newTextBytes f = .ok o := by
  unfold textUnder at h
  unfold newTextBytes
  split at h
  · next hs => rw [if_pos hs]; cases h; rfl
  · next hs =>
    rw [if_neg hs]
    split at h
    · cases h
    · cases hr : readJson f.source with
      | error e => rw [hr] at h; cases h
      | ok data =>
        rw [hr] at h
        simp only [bind, Except.bind] at h ⊢
        cases hq : requisiteData data with
        | error e => rw [hq] at h; cases h
        | ok r =>
          rw [hq] at h
          cases r with
          | none => cases h; rfl
          | some r =>
            simp only at h ⊢
            cases he : extractJson r with
            | error e => rw [he] at h; cases h
            | ok d =>
              rw [he] at h
              simp only at h ⊢
              split at h
              · cases h
              · cases hf : f.supplementary with
                | none => rw [hf] at h; cases h
                | some supp =>
                  rw [hf] at h
                  simp only at h ⊢
                  cases hs : readJson supp with
                  | error e => rw [hs] at h; cases h
                  | ok data' =>
                    rw [hs] at h
                    simp only at h ⊢
                    cases hm : mergeText d data' with
                    | error e => rw [hm] at h; cases h
                    | ok text => rw [hm] at h; cases h; rfl

/-- An exception that is not the operating system's is raised without failures too. -/
theorem textUnder_script {q : Faults} {f : LangBytes} {e : FileErr} (h : textUnder q f = .error (.script e)) : newTextBytes f = .error e := by
  unfold textUnder at h
  unfold newTextBytes
  split at h
  · cases h
  · next hs =>
    rw [if_neg hs]
    split at h
    · cases h
    · cases hr : readJson f.source with
      | error e => rw [hr] at h; cases h; rfl
      | ok data =>
        rw [hr] at h
        simp only [bind, Except.bind] at h ⊢
        cases hq : requisiteData data with
        | error e => rw [hq] at h; cases h; rfl
        | ok r =>
          rw [hq] at h
          cases r with
          | none => cases h
          | some r =>
            simp only at h ⊢
            cases he : extractJson r with
            | error e => rw [he] at h; cases h; rfl
            | ok d =>
              rw [he] at h
              simp only at h ⊢
              split at h
              · cases h
              · cases hf : f.supplementary with
                | none => rw [hf] at h; cases h; rfl
                | some supp =>
                  rw [hf] at h
                  simp only at h ⊢
                  cases hs : readJson supp with
                  | error e => rw [hs] at h; cases h; rfl
                  | ok data' =>
                    rw [hs] at h
                    simp only at h ⊢
                    cases hm : mergeText d data' with
                    | error e => rw [hm] at h; cases h; rfl
                    | ok text => rw [hm] at h; cases h

/-- If the source can be read and something is made of the file, then unless it is passed over the supplementary file was read. -/
theorem textUnder_os {q : Faults} {f : LangBytes} (h : textUnder q f = .error .os) :
    ¬ SpecialName f.name ∧ (q.source = true ∨ (q.supplementary = true ∧ ¬ LeftOutBytes f)) := by
  have hn : ¬ SpecialName f.name := by
    intro hs
    unfold textUnder at h
    rw [if_pos ((skipped_special _).mpr hs)] at h; cases h
  refine ⟨hn, ?_⟩
  by_cases hq : q.source = true
  · exact .inl hq
  · right
    unfold textUnder at h
    rw [if_neg (fun h => hn ((skipped_special _).mp h)), if_neg hq] at h
    cases hr : readJson f.source with
    | error e => rw [hr] at h; cases h
    | ok data =>
      rw [hr] at h
      simp only at h
      cases hq : requisiteData data with
      | error e => rw [hq] at h; cases h
      | ok r =>
        rw [hq] at h
        cases r with
        | none => cases h
        | some r =>
          simp only at h
          have hnl : ¬ LeftOutBytes f := by
            intro hl
            have := (newTextBytes_none f).mpr hl
            unfold newTextBytes at this
            rw [if_neg (fun h => hn ((skipped_special _).mp h)), hr] at this
            simp only [bind, Except.bind, hq] at this
            cases he : extractJson r with
            | error e => rw [he] at this; cases this
            | ok d =>
              rw [he] at this
              cases hf : f.supplementary with
              | none => rw [hf] at this; cases this
              | some supp =>
                rw [hf] at this
                simp only at this
                cases hs : readJson supp with
                | error e => rw [hs] at this; cases this
                | ok data' =>
                  rw [hs] at this
                  simp only at this
                  cases hm : mergeText d data' with
                  | error e => rw [hm] at this; cases this
                  | ok text => rw [hm] at this; cases this
          cases he : extractJson r with
          | error e => rw [he] at h; cases h
          | ok d =>
            rw [he] at h
            simp only at h
            split at h
            · next hx => exact ⟨hx, hnl⟩
            · cases hf : f.supplementary with
              | none => rw [hf] at h; cases h
              | some supp =>
                rw [hf] at h
                simp only at h
                cases hs : readJson supp with
                | error e => rw [hs] at h; cases h
                | ok data' =>
                  rw [hs] at h
                  simp only at h
                  cases hm : mergeText d data' with
                  | error e => rw [hm] at h; cases h
                  | ok text => rw [hm] at h; cases h

/-- The failures that reading takes notice of -/
theorem textUnder_reads {q : Faults} {f : LangBytes} {o : Option PyStr} (h : textUnder q f = .ok o) (hn : ¬ SpecialName f.name) :
    q.source = false ∧ (o ≠ none → q.supplementary = false) := by
  unfold textUnder at h
  rw [if_neg (fun h => hn ((skipped_special _).mp h))] at h
  split at h
  · cases h
  · next hq =>
    refine ⟨by simpa using hq, fun ho => ?_⟩
    cases hx : q.supplementary with
    | false => rfl
    | true =>
      exfalso
      rw [hx] at h
      cases hr : readJson f.source with
      | error e => rw [hr] at h; cases h
      | ok data =>
        rw [hr] at h
        simp only at h
        cases hq : requisiteData data with
        | error e => rw [hq] at h; cases h
        | ok r =>
          rw [hq] at h
          cases r with
          | none => cases h; exact ho rfl
          | some r =>
            simp only at h
            cases he : extractJson r with
            | error e => rw [he] at h; cases h
            | ok d => rw [he] at h; cases h

theorem textUnder_noFaults (f : LangBytes) (o : Option PyStr) : textUnder noFaults f = .ok o ↔ newTextBytes f = .ok o := by
  refine ⟨textUnder_ok, fun h => ?_⟩
  cases hu : textUnder noFaults f with
  | ok o' => rw [textUnder_ok hu] at h; cases h; rfl
  | error e =>
    cases e with
    | os =>
      obtain ⟨_, h1 | h1⟩ := textUnder_os hu
      · cases h1
      · cases h1.1
    | script e => rw [textUnder_script hu] at h; cases h

/-- What one language does -/
theorem writeUnder_ok {q : Faults} {f : LangBytes} {T T' : Table Bytes} (h : writeUnder q f T = (T', none)) : writeOneBytes f T = (T', none) := by
  unfold writeUnder at h
  unfold writeOneBytes
  cases ht : textUnder q f with
  | error e => rw [ht] at h; simp at h
  | ok o =>
    rw [ht] at h
    rw [textUnder_ok ht]
    cases o with
    | none => simpa using h
    | some text =>
      simp only at h ⊢
      split at h
      · simp at h
      · cases he : utf8Encode text with
        | none => rw [he] at h; simp at h
        | some b =>
          rw [he] at h
          simp only at h ⊢
          cases hs : q.stop with
          | none => rw [hs] at h; simpa using h
          | some k => rw [hs] at h; simp at h

theorem writeUnder_noFaults (f : LangBytes) (T : Table Bytes) :
    writeUnder noFaults f T = ((writeOneBytes f T).1, (writeOneBytes f T).2.map .script) := by
  unfold writeUnder writeOneBytes
  cases ht : newTextBytes f with
  | ok o =>
    rw [(textUnder_noFaults f o).mpr ht]
    cases o with
    | none => rfl
    | some text =>
      cases he : utf8Encode text with
      | none => simp [he, noFaults]
      | some b => simp [he, noFaults]
  | error e =>
    cases hu : textUnder noFaults f with
    | ok o' => rw [textUnder_ok hu] at ht; cases ht
    | error e' =>
      cases e' with
      | os =>
        obtain ⟨_, h1 | h1⟩ := textUnder_os hu
        · cases h1
        · cases h1.1
      | script e' => rw [textUnder_script hu] at ht; cases ht; rfl

theorem writeUnder_undisturbed (f : LangBytes × Faults) (hu : Usual f.1) (T : Table Bytes) :
    (writeUnder f.2 f.1 T).2 = none ↔ Undisturbed f := by
  constructor
  · intro h
    rcases hw : writeUnder f.2 f.1 T with ⟨T', o⟩
    rw [hw] at h
    simp only at h
    subst h
    by_cases hn : SpecialName f.1.name
    · exact .inl hn
    right
    have hw2 := hw
    unfold writeUnder at hw2
    cases ht : textUnder f.2 f.1 with
    | error e => rw [ht] at hw2; simp at hw2
    | ok o =>
      obtain ⟨h1, h2⟩ := textUnder_reads ht hn
      cases o with
      | none => exact .inl ⟨h1, (newTextBytes_none _).mp (textUnder_ok ht)⟩
      | some text =>
        right
        rw [ht] at hw2
        simp only at hw2
        split at hw2
        · simp at hw2
        · next htg =>
          cases he : utf8Encode text with
          | none => rw [he] at hw2; simp at hw2
          | some b =>
            rw [he] at hw2
            simp only at hw2
            cases hs : f.2.stop with
            | some k => rw [hs] at hw2; simp at hw2
            | none =>
              refine ⟨⟨b, text, (newTextBytes_some _ hu _).mp (textUnder_ok ht), (utf8Encode_iff _ _).mp he⟩, ?_⟩
              have h3 := h2 (by simp)
              rcases f with ⟨f, ⟨a, b, c, d⟩⟩
              simp only at h1 h3 htg hs
              subst h1 h3 hs
              have : c = false := by simpa using htg
              subst this
              rfl
  · rintro (h | ⟨h1, h2⟩ | ⟨⟨b, hb⟩, h2⟩)
    · unfold writeUnder textUnder
      rw [if_pos ((skipped_special _).mpr h)]
    · cases ht : textUnder f.2 f.1 with
      | ok o =>
        have := textUnder_ok ht
        rw [(newTextBytes_none _).mpr h2] at this
        cases this
        unfold writeUnder
        rw [ht]
      | error e =>
        cases e with
        | os =>
          obtain ⟨_, h3 | h3⟩ := textUnder_os ht
          · rw [h1] at h3; cases h3
          · exact absurd h2 h3.2
        | script e =>
          have := textUnder_script ht
          rw [(newTextBytes_none _).mpr h2] at this; cases this
    · rw [h2, writeUnder_noFaults]
      obtain ⟨text, hm, hb⟩ := hb
      unfold writeOneBytes
      rw [newTextBytes_of _ _ hm]
      simp only
      rw [(utf8Encode_iff _ _).mpr hb]
      rfl

/-- What is left behind after an exception -/
theorem writeUnder_left (f : LangBytes × Faults) (hu : Usual f.1) (T : Table Bytes) {e : SysErr} (h : (writeUnder f.2 f.1 T).2 = some e) :
    LeftBehind f T (writeUnder f.2 f.1 T).1 := by
  unfold writeUnder at h ⊢
  cases ht : textUnder f.2 f.1 with
  | error e =>
    refine .untouched ?_
    cases e with
    | os =>
      refine .inl (fun ho => ?_)
      rcases (textUnder_os ht).2 with h | ⟨h, _⟩
      · rw [ho.1] at h; cases h
      · rw [ho.2.1] at h; cases h
    | script e =>
      refine .inr (fun ⟨t, hm⟩ => ?_)
      have := textUnder_script ht
      rw [newTextBytes_of _ _ hm] at this
      cases this
  | ok o =>
    rw [ht] at h
    cases o with
    | none => cases h
    | some text =>
      have hm := (newTextBytes_some _ hu _).mp (textUnder_ok ht)
      have hns : ¬ SpecialName f.1.name := fun hs => by
        have := (newTextBytes_none f.1).mpr (.inl hs)
        rw [textUnder_ok ht] at this
        cases this
      obtain ⟨hs, hp⟩ := textUnder_reads ht hns
      simp only at h ⊢
      split
      · next hq => exact .untouched (.inl (fun ho => by rw [ho.2.2] at hq; cases hq))
      · next hq =>
        rw [if_neg hq] at h
        have ho : CanOpen f := ⟨hs, hp (by simp), by simpa using hq⟩
        cases he : utf8Encode text with
        | none => exact .emptied text ho hm ((encode_none text).mp he)
        | some b =>
          rw [he] at h
          have hmb : ModuleBytes f.1 b := ⟨text, hm, (utf8Encode_iff _ _).mp he⟩
          simp only at h ⊢
          cases hk : f.2.stop with
          | none => rw [hk] at h; cases h
          | some k => exact .beginning b k ho hmb hk

/-- One of the states that can be seen during a run without failures -/
theorem writeUnder_visible (f : LangBytes × Faults) (fs : List LangBytes) (T : Table Bytes) : VisibleBytes (f.1 :: fs) T (writeUnder f.2 f.1 T).1 := by
  unfold writeUnder
  cases ht : textUnder f.2 f.1 with
  | error e => exact .here _ _
  | ok o =>
    cases o with
    | none => exact .here _ _
    | some text =>
      have hm := textUnder_ok ht
      simp only
      split
      · exact .here _ _
      · cases he : utf8Encode text with
        | none => exact .truncated _ _ _ text hm he
        | some b =>
          simp only
          cases f.2.stop with
          | none => exact .during _ _ _ text b _ hm he (List.prefix_refl _)
          | some k => exact .during _ _ _ text b _ hm he (List.take_prefix _ _)

theorem allUnder_cons_ok {f : LangBytes × Faults} {fs : List (LangBytes × Faults)} {T T' : Table Bytes} (h : writeUnder f.2 f.1 T = (T', none)) :
    writeAllUnder (f :: fs) T = writeAllUnder fs T' := by rw [writeAllUnder, h]

theorem allUnder_cons_error {f : LangBytes × Faults} {fs : List (LangBytes × Faults)} {T T' : Table Bytes} {e : SysErr}
    (h : writeUnder f.2 f.1 T = (T', some e)) : writeAllUnder (f :: fs) T = (T', some e) := by rw [writeAllUnder, h]

theorem allUnder_success (fs : List (LangBytes × Faults)) (hu : ∀ f ∈ fs, Usual f.1) (T : Table Bytes) :
    (writeAllUnder fs T).2 = none ↔ ∀ f ∈ fs, Undisturbed f := by
  induction fs generalizing T with
  | nil => simp [writeAllUnder]
  | cons f fs ih =>
    have hf := writeUnder_undisturbed f (hu f (by simp)) T
    rcases hw : writeUnder f.2 f.1 T with ⟨T', o⟩
    rw [hw] at hf
    cases o with
    | none =>
      rw [allUnder_cons_ok hw, ih (fun g hg => hu g (by simp [hg]))]
      have := hf.mp rfl
      simp [this]
    | some e =>
      rw [allUnder_cons_error hw]
      have : ¬ Undisturbed f := fun h => by have := hf.mpr h; cases this
      simp [this]

theorem allUnder_same {fs : List (LangBytes × Faults)} {T : Table Bytes} (h : (writeAllUnder fs T).2 = none) :
    writeAllBytes (fs.map (fun f => f.1)) T = ((writeAllUnder fs T).1, none) := by
  induction fs generalizing T with
  | nil => rfl
  | cons f fs ih =>
    rcases hw : writeUnder f.2 f.1 T with ⟨T', o⟩
    cases o with
    | none =>
      rw [allUnder_cons_ok hw] at h ⊢
      rw [List.map_cons, writeAll_cons_ok (writeUnder_ok hw)]
      exact ih h
    | some e => rw [allUnder_cons_error hw] at h; cases h

theorem allUnder_error {fs : List (LangBytes × Faults)} (hu : ∀ f ∈ fs, Usual f.1) {T : Table Bytes} {e : SysErr} (h : (writeAllUnder fs T).2 = some e) :
    ∃ before f after, fs = before ++ f :: after ∧ (∀ g ∈ before, Undisturbed g) ∧ ¬ Undisturbed f ∧
      LeftBehind f (writeAllBytes (before.map (fun f => f.1)) T).1 (writeAllUnder fs T).1 ∧
      (writeUnder f.2 f.1 (writeAllBytes (before.map (fun f => f.1)) T).1).2 = some e := by
  induction fs generalizing T with
  | nil => cases h
  | cons f fs ih =>
    have hf := writeUnder_undisturbed f (hu f (by simp)) T
    rcases hw : writeUnder f.2 f.1 T with ⟨T', o⟩
    rw [hw] at hf
    cases o with
    | none =>
      rw [allUnder_cons_ok hw] at h
      obtain ⟨a, g, b, rfl, h1, h2, h3, h4⟩ := ih (fun g hg => hu g (by simp [hg])) h
      refine ⟨f :: a, g, b, rfl, ?_, h2, ?_, ?_⟩
      · intro x hx
        rcases List.mem_cons.mp hx with rfl | hx
        · exact hf.mp rfl
        · exact h1 x hx
      · rw [List.map_cons, writeAll_cons_ok (writeUnder_ok hw), allUnder_cons_ok hw]; exact h3
      · rw [List.map_cons, writeAll_cons_ok (writeUnder_ok hw)]; exact h4
    | some e' =>
      have hl := writeUnder_left f (hu f (by simp)) T (e := e') (by rw [hw])
      rw [hw] at hl
      rw [allUnder_cons_error hw] at h
      injection h with h
      subst h
      refine ⟨[], f, fs, rfl, by simp, ?_, ?_, ?_⟩
      · intro h; have := hf.mpr h; cases this
      · rw [allUnder_cons_error hw]; exact hl
      · show (writeUnder f.2 f.1 T).2 = _
        rw [hw]

theorem allUnder_visible (fs : List (LangBytes × Faults)) (T : Table Bytes) : VisibleBytes (fs.map (fun f => f.1)) T (writeAllUnder fs T).1 := by
  induction fs generalizing T with
  | nil => exact .here _ _
  | cons f fs ih =>
    have hv := writeUnder_visible f (fs.map (fun f => f.1)) T
    rcases hw : writeUnder f.2 f.1 T with ⟨T', o⟩
    cases o with
    | none =>
      rw [allUnder_cons_ok hw]
      exact .later _ _ _ _ _ (writeUnder_ok hw) (ih T')
    | some e =>
      rw [allUnder_cons_error hw]
      rw [hw] at hv
      exact hv

theorem allUnder_noFaults (fs : List LangBytes) (T : Table Bytes) :
    writeAllUnder (fs.map (fun f => (f, noFaults))) T = ((writeAllBytes fs T).1, (writeAllBytes fs T).2.map .script) := by
  induction fs generalizing T with
  | nil => rfl
  | cons f fs ih =>
    have h := writeUnder_noFaults f T
    rcases hw : writeOneBytes f T with ⟨T', o⟩
    rw [hw] at h
    cases o with
    | none =>
      rw [List.map_cons, allUnder_cons_ok (f := (f, noFaults)) h, ih, writeAll_cons_ok hw]
    | some e =>
      rw [List.map_cons, allUnder_cons_error (f := (f, noFaults)) h, writeAll_cons_error hw]
      rfl

/-- Targets that no source file has are never touched. -/
theorem visible_other {fs : List LangBytes} {T S : Table Bytes} (h : VisibleBytes fs T S) (name : PyStr)
    (hn : ∀ f ∈ fs, targetName f.name = name → LeftOutBytes f) : Table.get? S name = Table.get? T name := by
  have no : ∀ {f : LangBytes} {fs : List LangBytes} {text : PyStr}, (∀ g ∈ f :: fs, targetName g.name = name → LeftOutBytes g) →
      newTextBytes f = .ok (some text) → targetName f.name ≠ name := by
    intro f fs text hn h he
    have := (newTextBytes_none f).mpr (hn f (by simp) he)
    rw [h] at this; cases this
  induction h with
  | here => rfl
  | during f fs T text b part h1 _ _ => rw [Table.get?_set, if_neg (no hn h1)]
  | truncated f fs T text h1 _ => rw [Table.get?_set, if_neg (no hn h1)]
  | later f fs T T' T'' h1 _ ih =>
    rw [ih (fun g hg => hn g (by simp [hg]))]
    have := runBytes_other [f] T name (by
      intro g hg
      rw [List.mem_singleton] at hg
      subst hg
      exact hn g (by simp))
    rw [writeAll_cons_ok h1] at this
    exact this

end NumberParser
