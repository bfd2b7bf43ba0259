import Verif.Spec.Emit
import Verif.Proofs.GenFail

/-! Runs of the generator over the directories. -/

namespace NumberParser.Gen

open NumberParser Spec

theorem skipped_iff (n : PyStr) : SKIPPED_FILES.elem n = true ↔ n = u!"root.json" ∨ n = u!"es-419.json" := by
  rw [List.elem_eq_mem, decide_eq_true_iff]
  unfold SKIPPED_FILES
  simp only [List.mem_cons, List.not_mem_nil, or_false]

theorem newText_none (f : LangFiles) : newText f = .ok none ↔ LeftOut f := by
  unfold newText LeftOut
  rw [← or_assoc, ← skipped_iff]
  split
  · rename_i h
    simp only [h, true_or, iff_true]
    rfl
  · rename_i h
    simp only [h, false_or, Bool.false_eq_true]
    cases hr : f.rules with
    | none => simp only [iff_true]; rfl
    | some sets =>
      simp only [reduceCtorEq, iff_false]
      intro hx
      cases he : extract sets with
      | error e => rw [he] at hx; cases hx
      | ok d =>
        rw [he] at hx
        cases hs : f.supplementary with
        | none => rw [hs] at hx; cases hx
        | some supp =>
          rw [hs] at hx
          cases hg : generate sets supp with
          | error e =>
            change (do let out ← generate sets supp; return some (emit out) : GRes (Option PyStr)) = _ at hx
            rw [hg] at hx; cases hx
          | ok out =>
            change (do let out ← generate sets supp; return some (emit out) : GRes (Option PyStr)) = _ at hx
            rw [hg] at hx; cases hx

theorem newText_some (f : LangFiles) (text : PyStr) : newText f = .ok (some text) ↔ ModuleFor f text := by
  by_cases hl : LeftOut f
  · rw [(newText_none f).mpr hl]
    simp only [ModuleFor, hl, not_true_eq_false, false_and, iff_false]
    intro h; cases h
  · unfold ModuleFor
    have h1 : SKIPPED_FILES.elem f.name ≠ true := fun h => hl (by
      rcases (skipped_iff _).mp h with h | h
      · exact .inl h
      · exact .inr (.inl h))
    have h2 : f.rules ≠ none := fun h => hl (.inr (.inr h))
    simp only [hl, not_false_eq_true, true_and]
    unfold newText
    rw [if_neg h1]
    cases hr : f.rules with
    | none => exact absurd hr h2
    | some sets =>
      simp only
      constructor
      · intro hx
        cases he : extract sets with
        | error e => rw [he] at hx; cases hx
        | ok d =>
          rw [he] at hx
          cases hs : f.supplementary with
          | none => rw [hs] at hx; cases hx
          | some supp =>
            rw [hs] at hx
            change (do let out ← generate sets supp; return some (emit out) : GRes (Option PyStr)) = _ at hx
            cases hg : generate sets supp with
            | error e => rw [hg] at hx; cases hx
            | ok out =>
              rw [hg] at hx
              injection hx with hx
              injection hx with hx
              exact ⟨sets, supp, out, rfl, rfl, hg, hx.symm⟩
      · rintro ⟨sets', supp, out, he, hs, hg, rfl⟩
        injection he with he
        subst he
        have hx : ∃ d, extract sets = .ok d := by
          cases he : extract sets with
          | error e => unfold generate at hg; rw [he] at hg; cases hg
          | ok d => exact ⟨d, rfl⟩
        obtain ⟨d, hd⟩ := hx
        rw [hd, hs]
        show (do let out ← generate sets supp; return some (emit out) : GRes (Option PyStr)) = _
        rw [hg]; rfl

theorem newText_error (f : LangFiles) : (∃ e, newText f = .error e) ↔ FileFails f := by
  have hcase : (∃ e, newText f = .error e) ↔ ¬ LeftOut f ∧ ∀ text, ¬ ModuleFor f text := by
    rw [← newText_none]
    simp only [← newText_some]
    cases newText f with
    | error e => simp
    | ok x => cases x <;> simp
  rw [hcase]
  unfold FileFails
  refine and_congr_right (fun hl => ?_)
  constructor
  · intro h
    cases hr : f.rules with
    | none => exact absurd (.inr (.inr hr)) hl
    | some sets =>
      refine ⟨sets, rfl, ?_⟩
      cases hs : f.supplementary with
      | none => exact .inl rfl
      | some supp =>
        right
        apply Classical.not_not.mp
        intro hno
        have hall : ∀ r ∈ usedRules sets, ¬ RuleFails r.1 r.2 := fun r hr hf => hno ⟨r, hr, hf⟩
        obtain ⟨out, hout⟩ := (generate_error sets supp).mpr hall
        exact h (emit out) ⟨hl, sets, supp, out, hr, hs, hout, rfl⟩
  · rintro ⟨sets, hr, hx⟩ text ⟨_, sets', supp, out, hr', hs, hg, _⟩
    rw [hr] at hr'
    injection hr' with hr'
    subst hr'
    rcases hx with hx | ⟨r, hm, hf⟩
    · rw [hs] at hx; cases hx
    · exact (generate_error sets supp).mp ⟨out, hg⟩ r hm hf

theorem moduleFor_unique {f : LangFiles} {t t' : PyStr} (h : ModuleFor f t) (h' : ModuleFor f t') : t = t' := by
  rw [← newText_some] at h h'
  rw [h] at h'
  injection h' with h'
  injection h'

/-- What a complete pass over a file does. -/
theorem writeOne_ok {f : LangFiles} {T T' : Table PyStr} (h : writeOne f T = .ok T') :
    (LeftOut f ∧ T' = T) ∨ ∃ text, ModuleFor f text ∧ T' = Table.set T (targetName f.name) text := by
  unfold writeOne at h
  cases hn : newText f with
  | error e => rw [hn] at h; cases h
  | ok x =>
    rw [hn] at h
    cases x with
    | none =>
      injection h with h
      exact .inl ⟨(newText_none f).mp hn, h.symm⟩
    | some text =>
      injection h with h
      exact .inr ⟨text, (newText_some f text).mp hn, h.symm⟩

theorem writeOne_error {f : LangFiles} {T : Table PyStr} : (∃ e, writeOne f T = .error e) ↔ FileFails f := by
  rw [← newText_error]
  unfold writeOne
  cases hn : newText f with
  | error e =>
    exact ⟨fun _ => ⟨e, rfl⟩, fun _ => ⟨e, rfl⟩⟩
  | ok x =>
    constructor
    · rintro ⟨e, he⟩
      cases x <;> cases he
    · rintro ⟨e, he⟩; cases he

/-- What a run leaves behind, for every target. -/
theorem run_targets (fs : List LangFiles) (T : Table PyStr) (name : PyStr) :
    let S := (writeCompleteData fs T).1
    Table.get? S name = Table.get? T name ∨ ∃ f ∈ fs, targetName f.name = name ∧ ∃ text, ModuleFor f text ∧ Table.get? S name = some text := by
  induction fs generalizing T with
  | nil => exact .inl rfl
  | cons f fs ih =>
    simp only [writeCompleteData]
    cases hw : writeOne f T with
    | error e => exact .inl rfl
    | ok T' =>
      simp only
      rcases ih T' with h | ⟨g, hg, hn, text, hm, hs⟩
      · rcases writeOne_ok hw with ⟨_, rfl⟩ | ⟨text, hm, rfl⟩
        · exact .inl h
        · rw [Table.get?_set] at h
          by_cases e : targetName f.name = name
          · rw [if_pos e] at h
            exact .inr ⟨f, List.mem_cons_self, e, text, hm, h⟩
          · rw [if_neg e] at h
            exact .inl h
      · exact .inr ⟨g, List.mem_cons_of_mem _ hg, hn, text, hm, hs⟩

/-- Targets of no file are left alone. -/
theorem run_other (fs : List LangFiles) (T : Table PyStr) (name : PyStr) (h : ∀ f ∈ fs, targetName f.name = name → LeftOut f) :
    Table.get? (writeCompleteData fs T).1 name = Table.get? T name := by
  rcases run_targets fs T name with h' | ⟨f, hf, hn, text, hm, _⟩
  · exact h'
  · exact absurd (h f hf hn) hm.1

theorem run_success (fs : List LangFiles) (T : Table PyStr) : (writeCompleteData fs T).2 = none ↔ ∀ f ∈ fs, ¬ FileFails f := by
  induction fs generalizing T with
  | nil => simp [writeCompleteData]
  | cons f fs ih =>
    simp only [writeCompleteData, List.forall_mem_cons]
    have := writeOne_error (f := f) (T := T)
    cases hw : writeOne f T with
    | error e =>
      rw [hw] at this
      simp only [reduceCtorEq, false_iff, not_and]
      intro hx
      exact absurd (this.mp ⟨e, rfl⟩) hx
    | ok T' =>
      rw [hw] at this
      simp only
      rw [ih T']
      have hx : ¬ FileFails f := fun hf => by
        obtain ⟨e, he⟩ := this.mpr hf
        cases he
      simp [hx]

/-- After a run without exception each source file has its module. -/
theorem run_module {fs : List LangFiles} {T : Table PyStr} (hd : DistinctTargets fs) (hs : (writeCompleteData fs T).2 = none)
    {f : LangFiles} (hf : f ∈ fs) {text : PyStr} (hm : ModuleFor f text) :
    Table.get? (writeCompleteData fs T).1 (targetName f.name) = some text := by
  induction fs generalizing T with
  | nil => cases hf
  | cons g fs ih =>
    unfold DistinctTargets at hd
    rw [List.map_cons, List.nodup_cons] at hd
    simp only [writeCompleteData] at hs ⊢
    cases hw : writeOne g T with
    | error e => rw [hw] at hs; cases hs
    | ok T' =>
      rw [hw] at hs
      simp only at hs ⊢
      rcases List.mem_cons.mp hf with rfl | hf
      · rw [run_other]
        · rcases writeOne_ok hw with ⟨hl, _⟩ | ⟨text', hm', rfl⟩
          · exact absurd hl hm.1
          · rw [Table.get?_set, if_pos rfl, moduleFor_unique hm hm']
        · intro g hg hn
          exact absurd (List.mem_map.mpr ⟨g, hg, hn⟩) hd.1
      · exact ih hd.2 hs hf

/-- What can be seen at any moment. -/
theorem visible_targets {fs : List LangFiles} {T S : Table PyStr} (h : Visible fs T S) :
    ∃ broken : Option PyStr, ∀ name,
      (Table.get? S name = Table.get? T name ∨ ∃ f ∈ fs, targetName f.name = name ∧ ∃ text, ModuleFor f text ∧ Table.get? S name = some text) ∨
      (broken = some name ∧ ∃ f ∈ fs, targetName f.name = name ∧ ∃ text part, ModuleFor f text ∧ part <+: text ∧ Table.get? S name = some part) := by
  induction h with
  | here fs T => exact ⟨none, fun name => .inl (.inl rfl)⟩
  | during f fs T text part hn hp =>
    refine ⟨some (targetName f.name), fun name => ?_⟩
    rw [Table.get?_set]
    by_cases e : targetName f.name = name
    · rw [if_pos e]
      exact .inr ⟨by rw [e], f, List.mem_cons_self, e, text, part, (newText_some f text).mp hn, hp, rfl⟩
    · rw [if_neg e]
      exact .inl (.inl rfl)
  | later f fs T T' S hw _ ih =>
    obtain ⟨b, hb⟩ := ih
    refine ⟨b, fun name => ?_⟩
    rcases hb name with (h | ⟨g, hg, hn, text, hm, hs⟩) | ⟨hbn, g, hg, hn, text, part, hm, hp, hs⟩
    · rcases writeOne_ok hw with ⟨_, rfl⟩ | ⟨text, hm, rfl⟩
      · exact .inl (.inl h)
      · rw [Table.get?_set] at h
        by_cases e : targetName f.name = name
        · rw [if_pos e] at h
          exact .inl (.inr ⟨f, List.mem_cons_self, e, text, hm, h⟩)
        · rw [if_neg e] at h
          exact .inl (.inl h)
    · exact .inl (.inr ⟨g, List.mem_cons_of_mem _ hg, hn, text, hm, hs⟩)
    · exact .inr ⟨hbn, g, List.mem_cons_of_mem _ hg, hn, text, part, hm, hp, hs⟩

end NumberParser.Gen
