import Verif.Spec.System
import Verif.Proofs.System
import Verif.Props.Files

/-!
# C98: the generator when the operating system fails

Specification: Verif/Spec/System.lean.
-/

namespace NumberParser.Props
open NumberParser Gen Spec

set_option maxRecDepth 100000

/-- **C98** Without failures of the operating system the run is that of C67. -/
theorem c98_no_faults (fs : List LangBytes) (T : Table Bytes) :
    runUnder (some (fs.map (fun f => (f, noFaults)))) T = ((writeAllBytes fs T).1, (writeAllBytes fs T).2.map .script) := allUnder_noFaults fs T

/-- **C98** A run ends without exception exactly if the source directory can be listed and nothing goes wrong with any of the files; ... -/
theorem c98_success (files : Option (List (LangBytes × Faults))) (hu : ∀ fs, files = some fs → ∀ f ∈ fs, Usual f.1) (T : Table Bytes) :
    (runUnder files T).2 = none ↔ ∃ fs, files = some fs ∧ ∀ f ∈ fs, Undisturbed f := by
  cases files with
  | none =>
    constructor
    · intro h; cases h
    · rintro ⟨_, h, _⟩; cases h
  | some fs =>
    have := allUnder_success fs (hu fs rfl) T
    exact this.trans ⟨fun h => ⟨fs, rfl, h⟩, fun ⟨_, e, h⟩ => by injection e with e; rw [e]; exact h⟩

/-- **C98** ... the targets are then the same as without failures. -/
theorem c98_same (fs : List (LangBytes × Faults)) (T : Table Bytes) (h : (runUnder (some fs) T).2 = none) :
    (runUnder (some fs) T).1 = (writeAllBytes (fs.map (fun f => f.1)) T).1 := by
  rw [allUnder_same h]; rfl

/-- **C98** A run that ends with an exception has come to the first file with which something goes wrong: the targets are those of a run
over the files before it, except that the target of this file may be touched: if writing stops, it is the beginning of the module that
was written; if the module cannot be encoded, it is empty; if something could not be opened or read, it is as before. -/
theorem c98_exception (fs : List (LangBytes × Faults)) (hu : ∀ f ∈ fs, Usual f.1) (T : Table Bytes) (e : SysErr)
    (h : (runUnder (some fs) T).2 = some e) :
    ∃ before f after, fs = before ++ f :: after ∧ (∀ g ∈ before, Undisturbed g) ∧ ¬ Undisturbed f ∧
      LeftBehind f (writeAllBytes (before.map (fun f => f.1)) T).1 (runUnder (some fs) T).1 := by
  obtain ⟨a, f, b, h1, h2, h3, h4, _⟩ := allUnder_error hu h
  exact ⟨a, f, b, h1, h2, h3, h4⟩

/-- **C98** An exception that is no `OSError` has its reason in the files, and is raised without failures too (but possibly not as the
first one); an `OSError` has its reason in a failure. -/
theorem c98_reason (fs : List (LangBytes × Faults)) (hu : ∀ f ∈ fs, Usual f.1) (T : Table Bytes) :
    (∀ e, (runUnder (some fs) T).2 = some (.script e) → ∃ f ∈ fs, FailsBytes f.1) ∧
    ((runUnder (some fs) T).2 = some .os → ∃ f ∈ fs, f.2 ≠ noFaults ∧ ¬ SpecialName f.1.name) := by
  constructor
  · intro e h
    obtain ⟨a, f, b, h1, _, h3, _, h5⟩ := allUnder_error hu h
    have hf : f ∈ fs := by rw [h1]; simp
    refine ⟨f, hf, ?_⟩
    generalize (writeAllBytes (a.map (fun f => f.1)) T).1 = S at h5
    unfold writeUnder at h5
    cases ht : textUnder f.2 f.1 with
    | error e' =>
      rw [ht] at h5
      simp only [Option.some.injEq] at h5
      subst h5
      have hn := textUnder_script ht
      refine ⟨fun hl => ?_, ?_⟩
      · rw [(newTextBytes_none _).mpr hl] at hn; cases hn
      · rintro ⟨b, t, hm, _⟩
        rw [newTextBytes_of _ _ hm] at hn; cases hn
    | ok o =>
      rw [ht] at h5
      cases o with
      | none => cases h5
      | some text =>
        simp only at h5
        split at h5
        · cases h5
        · cases he : utf8Encode text with
          | none => exact unencodable_fails ((newTextBytes_some _ (hu f hf) _).mp (textUnder_ok ht)) ((encode_none _).mp he)
          | some b =>
            rw [he] at h5
            simp only at h5
            cases hs : f.2.stop with
            | none => rw [hs] at h5; cases h5
            | some k => rw [hs] at h5; cases h5
  · intro h
    obtain ⟨a, f, b, h1, _, h3, _, h5⟩ := allUnder_error hu h
    refine ⟨f, by rw [h1]; simp, fun e => ?_, fun hs => h3 (.inl hs)⟩
    rw [e, writeUnder_noFaults] at h5
    cases ho : (writeOneBytes f.1 (writeAllBytes (a.map (fun f => f.1)) T).1).2 with
    | none => rw [ho] at h5; cases h5
    | some e' => rw [ho] at h5; cases h5

/-- **C98** However the run ends, all targets but at most one are as before or complete; the one is a beginning of its module. -/
theorem c98_targets (fs : List (LangBytes × Faults)) (hu : ∀ f ∈ fs, Usual f.1) (T : Table Bytes) :
    ∃ broken : Option PyStr, ∀ name,
      (Table.get? (runUnder (some fs) T).1 name = Table.get? T name ∨
        ∃ f ∈ fs, moduleFile f.1.name = name ∧ ∃ b, ModuleBytes f.1 b ∧ Table.get? (runUnder (some fs) T).1 name = some b) ∨
      (broken = some name ∧ ∃ f ∈ fs, moduleFile f.1.name = name ∧ ∃ part, Table.get? (runUnder (some fs) T).1 name = some part ∧
        (part = [] ∨ ∃ b, ModuleBytes f.1 b ∧ part <+: b)) := by
  obtain ⟨broken, h⟩ := c67_killed (fs.map (fun f => f.1)) (by
    intro f hf
    obtain ⟨g, hg, rfl⟩ := List.mem_map.mp hf
    exact hu g hg) T _ (allUnder_visible fs T)
  refine ⟨broken, fun name => ?_⟩
  rcases h name with (h | ⟨f, hf, h⟩) | ⟨h1, f, hf, h⟩
  · exact .inl (.inl h)
  · obtain ⟨g, hg, rfl⟩ := List.mem_map.mp hf
    exact .inl (.inr ⟨g, hg, h⟩)
  · obtain ⟨g, hg, rfl⟩ := List.mem_map.mp hf
    exact .inr ⟨h1, g, hg, h⟩

/-! ## Histories -/

/-- **C98** Whatever runs there were, with failures or killed: a target that no used source file had is as at the beginning. -/
theorem c98_untouched (used : List (List LangBytes)) (T S : Table Bytes) (h : History used T S) (name : PyStr)
    (hn : ∀ fs ∈ used, ∀ f ∈ fs, moduleFile f.name = name → LeftOutBytes f) : Table.get? S name = Table.get? T name := by
  induction h with
  | start => rfl
  | failed fs _ ih =>
    rw [← ih (fun gs hg => hn gs (by simp [hg]))]
    exact visible_other (allUnder_visible fs _) name (hn _ (by simp))
  | unlisted _ ih => exact ih hn
  | killed fs _ hv ih =>
    rw [← ih (fun gs hg => hn gs (by simp [hg]))]
    exact visible_other hv name (hn _ (by simp))

/-- **C98** Whatever the targets are, in particular after any history of runs with failures or killed: a run without failures over source
files that are in order leaves behind the module of each of them, ... -/
theorem c98_recovers (S : Table Bytes) (fs : List LangBytes) (hu : ∀ f ∈ fs, Usual f)
    (hd : DistinctTargetsBytes fs) (hok : ∀ f ∈ fs, ¬ FailsBytes f) :
    (runUnder (some (fs.map (fun f => (f, noFaults)))) S).2 = none ∧
    ∀ f ∈ fs, ∀ bytes, ModuleBytes f bytes →
      Table.get? (runUnder (some (fs.map (fun f => (f, noFaults)))) S).1 (moduleFile f.name) = some bytes := by
  have hs := (c67_success fs hu S).mpr hok
  rw [c98_no_faults, hs]
  exact ⟨rfl, fun f hf bytes hb => (c67_run fs hu S hd hs _).1 f hf rfl bytes hb⟩

/-- **C98** ... and if the earlier runs used no other targets, exactly what it would have left behind without them. -/
theorem c98_as_if (used : List (List LangBytes)) (T S : Table Bytes) (h : History used T S) (fs : List LangBytes) (hu : ∀ f ∈ fs, Usual f)
    (hd : DistinctTargetsBytes fs) (hok : ∀ f ∈ fs, ¬ FailsBytes f)
    (hn : ∀ gs ∈ used, ∀ g ∈ gs, LeftOutBytes g ∨ ∃ f ∈ fs, moduleFile f.name = moduleFile g.name ∧ ¬ LeftOutBytes f) (name : PyStr) :
    Table.get? (runUnder (some (fs.map (fun f => (f, noFaults)))) S).1 name =
      Table.get? (runUnder (some (fs.map (fun f => (f, noFaults)))) T).1 name := by
  have hs := (c67_success fs hu S).mpr hok
  have hs' := (c67_success fs hu T).mpr hok
  rw [c98_no_faults, c98_no_faults]
  by_cases hm : ∃ f ∈ fs, moduleFile f.name = name ∧ ¬ LeftOutBytes f
  · obtain ⟨f, hf, he, hl⟩ := hm
    have hb : ∃ b, ModuleBytes f b := by
      have := hok f hf
      unfold FailsBytes at this
      cases Classical.em (∃ b, ModuleBytes f b) with
      | inl h => exact h
      | inr h => exact absurd ⟨hl, h⟩ this
    obtain ⟨b, hb⟩ := hb
    rw [(c67_run fs hu S hd hs name).1 f hf he b hb, (c67_run fs hu T hd hs' name).1 f hf he b hb]
  · have hleft : ∀ f ∈ fs, moduleFile f.name = name → LeftOutBytes f := by
      intro f hf he
      cases Classical.em (LeftOutBytes f) with
      | inl h => exact h
      | inr h => exact absurd ⟨f, hf, he, h⟩ hm
    rw [(c67_run fs hu S hd hs name).2 hleft, (c67_run fs hu T hd hs' name).2 hleft]
    apply c98_untouched used T S h
    intro gs hgs g hg he
    rcases hn gs hgs g hg with hl | ⟨f, hf, he', hl⟩
    · exact hl
    · exact absurd ⟨f, hf, by rw [he', he], hl⟩ hm

/-! ## Example -/

/-- The disk is full after ten bytes of the module: the run ends with an `OSError`, the module is broken. -/
theorem c98_full : runUnder (some [(small, { noFaults with stop := some 10 })]) [(u!"xx.py", [1, 2, 3])] =
    ([(u!"xx.py", [105, 110, 102, 111, 32, 61, 32, 123, 10, 32])], some .os) := by decide +kernel

theorem small_bytes : ∃ bytes, ModuleBytes small bytes := by
  have h := (c66_module small small_usual _).mp small_text
  cases he : utf8Encode (emit ⟨⟨[(u!"one", 1), (u!"два", 2)], [], [], [], [(u!"foo", 1000)]⟩, [u!"and"], none⟩) with
  | none => exact absurd he (by decide +kernel)
  | some b => exact ⟨b, _, h, (utf8Encode_iff _ _).mp he⟩

/-- The next run makes good for it: all is as if there had been no failure. -/
theorem c98_example : ∃ S, History [[small]] [(u!"xx.py", [1, 2, 3])] S ∧ Table.get? S u!"xx.py" = some [105, 110, 102, 111, 32, 61, 32, 123, 10, 32] ∧
    (∃ bytes, ModuleBytes small bytes ∧ Table.get? (runUnder (some [(small, noFaults)]) S).1 u!"xx.py" = some bytes) ∧
    ∀ name, Table.get? (runUnder (some [(small, noFaults)]) S).1 name = Table.get? (runUnder (some [(small, noFaults)]) [(u!"xx.py", [1, 2, 3])]).1 name := by
  obtain ⟨bytes, hm⟩ := small_bytes
  have hl : ¬ LeftOutBytes small := by obtain ⟨_, h, _⟩ := hm; exact not_leftOut_module h
  have hd : DistinctTargetsBytes [small] := by unfold DistinctTargetsBytes; simp
  have hu : ∀ f ∈ [small], Usual f := by intro f hf; rw [List.mem_singleton] at hf; subst hf; exact small_usual
  have hok : ∀ f ∈ [small], ¬ FailsBytes f := by intro f hf; rw [List.mem_singleton] at hf; subst hf; exact fun h => h.2 ⟨bytes, hm⟩
  have hh : History [[small]] [(u!"xx.py", [1, 2, 3])] _ :=
    History.failed [(small, { noFaults with stop := some 10 })] (History.start [(u!"xx.py", [1, 2, 3])])
  refine ⟨_, hh, ?_, ⟨bytes, hm, (c98_recovers _ [small] hu hd hok).2 small (by simp) bytes hm⟩, fun name => ?_⟩
  · have e := c98_full
    unfold runUnder at e
    simp only at e
    rw [e]
    decide +kernel
  · refine c98_as_if _ _ _ hh [small] hu hd hok (fun gs hgs g hg => ?_) name
    rw [List.mem_singleton] at hgs
    subst hgs
    have e : g = small := by simpa using hg
    subst e
    exact .inr ⟨small, by simp, rfl, hl⟩

end NumberParser.Props
