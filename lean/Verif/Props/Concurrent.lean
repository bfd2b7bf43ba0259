import Verif.Spec.Concurrent
import Verif.Proofs.Concurrent
import Verif.Props.System

/-!
# C99: several runs of the generator at the same time

Specification: Verif/Spec/Concurrent.lean.
-/

namespace NumberParser.Props
open NumberParser Gen Spec

set_option maxRecDepth 100000

/-- **C99** Whatever the schedule: at any moment, a target with which some process has begun holds nothing but bytes of its module at their
places, and zero bytes, and is not longer than the module.  (All processes have the same module for the target.) -/
theorem c99_moment (T : Table Bytes) (js : List (List (PyStr × Bytes))) (n : PyStr) (b : Bytes) (ha : Agreed js n b) (S : Table Bytes)
    (ps : List Process) (h : Reachable T js S ps) :
    (NotBegun js ps n ∧ Table.get? S n = Table.get? T n) ∨ ∃ c, Table.get? S n = some c ∧ WrittenWithin c b := by
  rcases (reachable_good ha h).2 with h | ⟨c, h1, h2, _⟩
  · exact .inl h
  · exact .inr ⟨c, h1, h2⟩

/-- **C99** Whenever no process has the target open, it is complete, or no process has begun with it and it is as before.  (Other processes
may have been killed meanwhile, but not while they had this target open.) -/
theorem c99_quiet (T : Table Bytes) (js : List (List (PyStr × Bytes))) (n : PyStr) (b : Bytes) (ha : Agreed js n b) (S : Table Bytes)
    (ps : List Process) (h : Reachable T js S ps) (hq : Quiet ps n) :
    (NotBegun js ps n ∧ Table.get? S n = Table.get? T n) ∨ Table.get? S n = some b := by
  rcases (reachable_good ha h).2 with h | ⟨c, h1, _, rfl | ⟨p, hp, w, hd, hn, _⟩⟩
  · exact .inl h
  · exact .inr h1
  · exact absurd hn (hq p hp w hd)

/-- **C99** When all processes have finished, every target is complete. -/
theorem c99_finished (T : Table Bytes) (js : List (List (PyStr × Bytes))) (n : PyStr) (b : Bytes) (ha : Agreed js n b)
    (hm : ∃ j ∈ js, ∃ x ∈ j, x.1 = n) (S : Table Bytes) (ps : List Process) (h : Reachable T js S ps) (hf : ∀ p ∈ ps, Finished p) :
    Table.get? S n = some b := by
  rcases c99_quiet T js n b ha S ps h (fun p hp w hw => by rw [(hf p hp).1] at hw; cases hw) with ⟨⟨_, he⟩, _⟩ | h
  · exfalso
    obtain ⟨j, hj, x, hx, hn⟩ := hm
    have h1 : j.filter (fun x => x.1 == n) ∈ js.map (fun j => j.filter (fun x => x.1 == n)) := List.mem_map.mpr ⟨j, hj, rfl⟩
    rw [← he] at h1
    obtain ⟨p, hp, e⟩ := List.mem_map.mp h1
    rw [(hf p hp).2] at e
    have h2 : x ∈ j.filter (fun x => x.1 == n) := List.mem_filter.mpr ⟨hx, by simpa using hn⟩
    rw [← e] at h2
    cases h2
  · exact h

/-- **C99** A target of no process is never touched. -/
theorem c99_other (T : Table Bytes) (js : List (List (PyStr × Bytes))) (n : PyStr) (hn : ∀ j ∈ js, ∀ x ∈ j, x.1 ≠ n) (S : Table Bytes)
    (ps : List Process) (h : Reachable T js S ps) : Table.get? S n = Table.get? T n := (reachable_other hn h).1

/-- **C99** No process waits for another: from every state the processes can all finish. -/
theorem c99_completes (T : Table Bytes) (js : List (List (PyStr × Bytes))) (S : Table Bytes) (ps : List Process) (h : Reachable T js S ps) :
    ∃ S' ps', Reachable T js S' ps' ∧ ∀ p ∈ ps', Finished p := reachable_finish_all ps [] (by simp) (by simpa using h)

/-- **C99** A process alone leaves behind what the sequential model says (C67), whatever the files hold and in whatever pieces it writes. -/
theorem c99_alone (fs : List LangBytes) (T S : Table Bytes) (p : Process) (h : Reachable T [jobs fs] S [p]) (hf : Finished p) (name : PyStr) :
    Table.get? S name = Table.get? (writeAllBytes fs T).1 name := by
  obtain ⟨q, done, e, h1⟩ := reachable_alone h
  injection e with e _
  subst e
  rw [hf.1] at h1
  obtain ⟨h2, h3⟩ := h1
  rw [hf.2, List.append_nil] at h2
  rw [h3, jobs_writeAll, h2]
  rfl

/-- **C99** Several runs at the same time over the same source files, each listing them in its own order, leave behind what one run does. -/
theorem c99_runs (fs : List LangBytes) (hu : ∀ f ∈ fs, Usual f) (hd : DistinctTargetsBytes fs) (hok : ∀ f ∈ fs, ¬ FailsBytes f)
    (runs : List (List LangBytes)) (hne : runs ≠ []) (hp : ∀ r ∈ runs, r.Perm fs) (T S : Table Bytes) (ps : List Process)
    (h : Reachable T (runs.map jobs) S ps) (hf : ∀ p ∈ ps, Finished p) (name : PyStr) :
    Table.get? S name = Table.get? (writeAllBytes fs T).1 name := by
  have hjobs : ∀ r ∈ runs, ∀ n b, (n, b) ∈ jobs r ↔ ∃ f ∈ fs, moduleFile f.name = n ∧ ModuleBytes f b := by
    intro r hr n b
    rw [jobs_mem (fun f hf => hu f ((hp r hr).mem_iff.mp hf)) (fun f hf => hok f ((hp r hr).mem_iff.mp hf))]
    constructor
    · rintro ⟨f, hf, h⟩; exact ⟨f, (hp r hr).mem_iff.mp hf, h⟩
    · rintro ⟨f, hf, h⟩; exact ⟨f, (hp r hr).mem_iff.mpr hf, h⟩
  have hs := (c67_success fs hu T).mpr hok
  have uniq : ∀ {f g : LangBytes}, f ∈ fs → g ∈ fs → moduleFile f.name = moduleFile g.name → f = g := by
    intro f g hf hg he
    unfold DistinctTargetsBytes at hd
    clear hu hok hp h hjobs hs
    induction fs with
    | nil => cases hf
    | cons a fs ih =>
      rw [List.map_cons, List.nodup_cons] at hd
      rcases List.mem_cons.mp hf with hfa | hfs <;> rcases List.mem_cons.mp hg with hga | hgs
      · rw [hfa, hga]
      · have h1 : moduleFile a.name ∈ fs.map (fun f => moduleFile f.name) := List.mem_map.mpr ⟨g, hgs, by rw [← hfa, he]⟩
        exact absurd h1 hd.1
      · have h1 : moduleFile a.name ∈ fs.map (fun f => moduleFile f.name) := List.mem_map.mpr ⟨f, hfs, by rw [← hga, he]⟩
        exact absurd h1 hd.1
      · exact ih hd.2 hfs hgs
  by_cases hm : ∃ f ∈ fs, moduleFile f.name = name ∧ ∃ b, ModuleBytes f b
  · obtain ⟨f, hff, he, b, hb⟩ := hm
    rw [(c67_run fs hu T hd hs name).1 f hff he b hb]
    refine c99_finished T (runs.map jobs) name b ?_ ?_ S ps h hf
    · intro j hj x hx hn
      obtain ⟨r, hr, rfl⟩ := List.mem_map.mp hj
      obtain ⟨g, hg, h1, h2⟩ := (hjobs r hr x.1 x.2).mp hx
      have e := uniq hff hg (by rw [he, h1, hn])
      subst e
      exact moduleBytes_unique h2 hb
    · cases runs with
      | nil => exact absurd rfl hne
      | cons r runs => exact ⟨jobs r, by simp, (name, b), (hjobs r (by simp) name b).mpr ⟨f, hff, he, hb⟩, rfl⟩
  · rw [c99_other T (runs.map jobs) name ?_ S ps h]
    · symm
      refine (c67_run fs hu T hd hs name).2 (fun f hff he => ?_)
      cases Classical.em (LeftOutBytes f) with
      | inl h => exact h
      | inr hl =>
        exfalso
        apply hok f hff
        exact ⟨hl, fun ⟨b, hb⟩ => hm ⟨f, hff, he, b, hb⟩⟩
    · intro j hj x hx hn
      obtain ⟨r, hr, rfl⟩ := List.mem_map.mp hj
      obtain ⟨g, hg, h1, h2⟩ := (hjobs r hr x.1 x.2).mp hx
      exact hm ⟨g, hg, by rw [h1, hn], x.2, h2⟩

/-! ## Examples -/

/-- Two processes with the same module: the second truncates what the first has written; for a moment there is a hole. -/
theorem c99_hole : ∃ ps, Reachable [(u!"xx.py", [9])] [[(u!"xx.py", [1, 2, 3])], [(u!"xx.py", [1, 2, 3])]] [(u!"xx.py", [0, 2, 3])] ps := by
  have h0 := Reachable.start (T := [(u!"xx.py", [9])]) (js := [[(u!"xx.py", [1, 2, 3])], [(u!"xx.py", [1, 2, 3])]])
  have h1 := Reachable.step (before := []) h0 (.opens _ _ _ _)
  have h2 := Reachable.step (before := []) h1 (.writes _ _ _ [] 0 1 _ (by decide +kernel) (by decide))
  have h3 := Reachable.step (before := [_]) h2 (.opens _ _ _ _)
  have h4 := Reachable.step (before := []) h3 (.writes _ _ _ [] 1 2 _ (by decide +kernel) (by decide))
  exact ⟨_, h4⟩

/-- Nevertheless the module is complete at the end; and there is an end. -/
theorem c99_example : ∃ S ps, Reachable [(u!"xx.py", [9])] [[(u!"xx.py", [1, 2, 3])], [(u!"xx.py", [1, 2, 3])]] S ps ∧ (∀ p ∈ ps, Finished p) ∧
    Table.get? S u!"xx.py" = some [1, 2, 3] := by
  obtain ⟨ps, h⟩ := c99_hole
  obtain ⟨S, ps', h1, h2⟩ := c99_completes _ _ _ _ h
  refine ⟨S, ps', h1, h2, c99_finished _ _ _ [1, 2, 3] ?_ ⟨[(u!"xx.py", [1, 2, 3])], by simp, (u!"xx.py", [1, 2, 3]), by simp, rfl⟩ S ps' h1 h2⟩
  intro j hj x hx _
  simp only [List.mem_cons, List.not_mem_nil, or_false, or_self] at hj
  subst hj
  rw [List.mem_singleton] at hx
  subst hx
  rfl

/-- The processes have to agree: two runs over different sources can leave behind a mixture of the two modules. -/
theorem c99_mixture : ∃ ps, Reachable [] [[(u!"xx.py", [1, 1, 1])], [(u!"xx.py", [2, 2])]] [(u!"xx.py", [2, 2, 1])] ps ∧ ∀ p ∈ ps, Finished p := by
  have h0 := Reachable.start (T := []) (js := [[(u!"xx.py", [1, 1, 1])], [(u!"xx.py", [2, 2])]])
  have h1 := Reachable.step (before := []) h0 (.opens _ _ _ _)
  have h2 := Reachable.step (before := [_]) h1 (.opens _ _ _ _)
  have h3 := Reachable.step (before := []) h2 (.writes _ _ _ [] 0 3 _ (by decide +kernel) (by decide))
  have h4 := Reachable.step (before := [_]) h3 (.writes _ _ _ [1, 1, 1] 0 2 _ (by decide +kernel) (by decide))
  have h5 := Reachable.step (before := []) h4 (.closes _ _ _ _)
  have h6 := Reachable.step (before := [_]) h5 (.closes _ _ _ _)
  refine ⟨_, h6, ?_⟩
  intro p hp
  simp only [List.mem_append, List.mem_cons, List.map_nil, List.not_mem_nil, or_false] at hp
  rcases hp with rfl | rfl <;> exact ⟨rfl, rfl⟩

/-- Two runs over the small language of C66 -/
theorem c99_small (T S : Table Bytes) (ps : List Process) (h : Reachable T [jobs [small], jobs [small]] S ps) (hf : ∀ p ∈ ps, Finished p) (name : PyStr) :
    Table.get? S name = Table.get? (writeAllBytes [small] T).1 name := by
  obtain ⟨bytes, hm⟩ := small_bytes
  refine c99_runs [small] ?_ ?_ ?_ [[small], [small]] (by simp) ?_ T S ps h hf name
  · intro f hf; rw [List.mem_singleton] at hf; subst hf; exact small_usual
  · unfold DistinctTargetsBytes; simp
  · intro f hf; rw [List.mem_singleton] at hf; subst hf; exact fun h => h.2 ⟨bytes, hm⟩
  · intro r hr; simp only [List.mem_cons, List.not_mem_nil, or_false, or_self] at hr; subst hr; exact List.Perm.refl _

end NumberParser.Props
