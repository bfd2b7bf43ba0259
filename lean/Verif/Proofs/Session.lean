import Verif.Model.Session
import Verif.Proofs.WF

/-! Call histories and threads (C41). -/

set_option linter.unusedSimpArgs false

namespace NumberParser

/-- The shared objects are as in a new process, apart from modules that have been imported since. -/
def Globals.Good (g : Globals) : Prop :=
  (∀ m ∈ g.modules, dataModule m.1 = some m.2) ∧ g.classAttrs = Globals.fresh.classAttrs

theorem fresh_good : Globals.fresh.Good := ⟨by simp [Globals.fresh], rfl⟩

/-- The program keeps the shared objects good and returns `r` after at most `k` steps, whatever else happens to the
shared objects between its steps, as long as they are good. -/
def Yields {α : Type} : Prog α → Res α → Nat → Prop
  | .done r', r, _ => r' = r
  | .step _ _, _, 0 => False
  | .step w n, r, k + 1 => (∀ g, g.Good → (w g).Good) ∧ ∀ g, g.Good → Yields (n g) r k

theorem Yields.mono {α : Type} {p : Prog α} {r : Res α} {k k' : Nat} (h : Yields p r k) (hk : k ≤ k') : Yields p r k' := by
  induction p generalizing k k' with
  | done r' => exact h
  | step w n ih =>
    cases k with
    | zero => exact absurd h (by simp [Yields])
    | succ k =>
      cases k' with
      | zero => omega
      | succ k' => exact ⟨h.1, fun g hg => ih g (h.2 g hg) (by omega)⟩

theorem Yields.pure {α : Type} (a : α) (k : Nat) : Yields (Pure.pure a : Prog α) (.ok a) k := by
  show Yields (.done (.ok a)) _ _
  cases k <;> exact rfl

theorem Yields.lift {α : Type} (r : Res α) (k : Nat) : Yields (Prog.lift r) r k := by
  unfold Prog.lift; cases k <;> exact rfl

theorem Yields.bind {α β : Type} {p : Prog α} {r : Res α} {k k' : Nat} {f : α → Prog β} {f' : α → Res β} (h : Yields p r k)
    (hf : ∀ a, r = .ok a → Yields (f a) (f' a) k') : Yields (p >>= f) (r >>= f') (k + k') := by
  show Yields (p.bind f) _ _
  induction p generalizing k with
  | done r' =>
    have e : r' = r := by cases k <;> exact h
    subst e
    cases r' with
    | ok a => exact (hf a rfl).mono (by omega)
    | error e => unfold Prog.bind; cases hk : k + k' <;> exact rfl
  | step w n ih =>
    cases k with
    | zero => exact absurd h (by simp [Yields])
    | succ k =>
      rw [show k + 1 + k' = (k + k') + 1 from by omega]
      exact ⟨h.1, fun g hg => ih g (h.2 g hg)⟩

theorem Yields.attempt {α : Type} {p : Prog α} {r : Res α} {k : Nat} (h : Yields p r k) : Yields p.attempt (.ok r) k := by
  induction p generalizing k with
  | done r' =>
    have e : r' = r := by cases k <;> exact h
    subst e
    unfold Prog.attempt; cases k <;> exact rfl
  | step w n ih =>
    cases k with
    | zero => exact absurd h (by simp [Yields])
    | succ k => exact ⟨h.1, fun g hg => ih g (h.2 g hg)⟩

theorem Yields.run {α : Type} {p : Prog α} {r : Res α} {k : Nat} (h : Yields p r k) {g : Globals} (hg : g.Good) :
    (p.run g).1 = r ∧ (p.run g).2.Good := by
  induction p generalizing k g with
  | done r' =>
    have e : r' = r := by cases k <;> exact h
    exact ⟨e, hg⟩
  | step w n ih =>
    cases k with
    | zero => exact absurd h (by simp [Yields])
    | succ k => exact ih g (h.2 g hg) (h.1 g hg)

/-! ### The calls -/

theorem findModule_good {g : Globals} (hg : g.Good) {l : PyStr} {info : Info} (h : findModule g l = some info) : dataModule l = some info := by
  unfold findModule at h
  rw [Option.map_eq_some_iff] at h
  obtain ⟨m, hm, rfl⟩ := h
  have h1 := List.mem_of_find?_eq_some hm
  have h2 := List.find?_some hm
  simp only [beq_iff_eq] at h2
  rw [← h2]; exact hg.1 m h1

theorem importInfo_yields (l : PyStr) : Yields (importInfo l) (match dataModule l with | some info => .ok info | none => .error .unsupportedLanguage) 1 := by
  refine ⟨?_, ?_⟩
  · intro g hg
    simp only
    split
    · exact hg
    · split
      · rename_i info hi
        refine ⟨?_, hg.2⟩
        intro m hm
        rcases List.mem_append.mp hm with hm | hm
        · exact hg.1 m hm
        · simp only [List.mem_singleton] at hm; rw [hm]; exact hi
      · exact hg
  · intro g hg
    simp only
    split
    · rename_i info hi
      rw [findModule_good hg hi]; exact rfl
    · split
      · rename_i i hi; rw [hi]; exact rfl
      · rename_i hi; rw [hi]; exact rfl

theorem languageDataP_yields (l : PyStr) : Yields (languageDataP l) (languageData l) 1 := by
  unfold languageDataP languageData
  split
  · exact rfl
  · have := Yields.bind (f := fun info => (Pure.pure (mkLangData info) : Prog LangData)) (f' := fun info => .ok (mkLangData info)) (k' := 0) (importInfo_yields l)
      (fun a _ => Yields.pure _ _)
    refine Eq.mp ?_ this
    congr 1
    cases dataModule l <;> rfl

theorem countValidP_yields (s l : PyStr) : Yields (countValidP s l) (countValid s l) 1 :=
  Yields.bind (k' := 0) (languageDataP_yields l) (fun _ _ => Yields.pure _ _)

theorem scoresP_yields (s : PyStr) (ls : List PyStr) :
    Yields (scoresP s ls) (ls.mapM (fun l => do return (l, ← countValid s l))) ls.length := by
  induction ls with
  | nil => exact rfl
  | cons l ls ih =>
    rw [List.mapM_cons]
    unfold scoresP
    have := Yields.bind (countValidP_yields s l) (k' := ls.length)
      (f := fun n => (do let rest ← scoresP s ls; return (l, n) :: rest))
      (f' := fun n => (do let rest ← ls.mapM (fun l => (do return (l, ← countValid s l) : Res (PyStr × Nat))); return (l, n) :: rest))
      (fun n _ => Yields.bind (k' := 0) ih (fun _ _ => Yields.pure _ _))
    rw [List.length_cons, Nat.add_comm]
    refine Eq.mp ?_ this
    congr 1
    cases countValid s l <;> rfl

theorem validTokensP_yields (s : PyStr) : Yields (validTokensByLanguageP s) (validTokensByLanguage s) 5 := by
  unfold validTokensByLanguageP validTokensByLanguage
  refine Yields.bind (k := 5) (k' := 0) (scoresP_yields s SUPPORTED_LANGUAGES) ?_
  intro d _
  simp only
  split
  · exact Yields.pure _ _
  · exact Yields.pure _ _

theorem resolveP_yields (s : PyStr) (lang : Option PyStr) : Yields (resolveLanguageP s lang) (resolveLanguage s lang) 5 := by
  cases lang with
  | some l => exact Yields.pure _ _
  | none => exact validTokensP_yields s

theorem resolveP_some (s l : PyStr) : Yields (resolveLanguageP s (some l)) (resolveLanguage s (some l)) 0 := Yields.pure _ _

theorem parseNumberP_gen {s : PyStr} {lang : Option PyStr} {k : Nat} (h : Yields (resolveLanguageP s lang) (resolveLanguage s lang) k) :
    Yields (parseNumberP s lang) (parseNumber s lang) (k + 1) := by
  unfold parseNumberP parseNumber
  split
  · exact Yields.pure _ _
  · split
    · exact Yields.lift _ _
    · exact Yields.bind h (fun l _ => Yields.bind (k' := 0) (languageDataP_yields l) (fun _ _ => Yields.lift _ _))

theorem parseNumberP_yields (s : PyStr) (lang : Option PyStr) : Yields (parseNumberP s lang) (parseNumber s lang) 6 :=
  parseNumberP_gen (resolveP_yields s lang)

theorem parseNumberP_some (s l : PyStr) : Yields (parseNumberP s (some l)) (parseNumber s (some l)) 1 :=
  parseNumberP_gen (resolveP_some s l)

theorem parseOrdinalP_yields (s : PyStr) (lang : Option PyStr) : Yields (parseOrdinalP s lang) (parseOrdinal s lang) 7 := by
  unfold parseOrdinalP parseOrdinal
  exact Yields.bind (k := 5) (k' := 2) (resolveP_yields s lang) (fun l _ =>
    Yields.bind (k := 1) (k' := 1) (languageDataP_yields l) (fun _ _ => parseNumberP_some _ l))

theorem fractionLoopP_yields (s l : PyStr) (seps : List PyStr) : Yields (fractionLoopP s l seps) (fractionLoop s l seps) 2 := by
  induction seps with
  | nil => exact Yields.pure _ _
  | cons sep seps ih =>
    unfold fractionLoopP fractionLoop
    split
    · rename_i h
      simp only [h]
      exact ih
    · rename_i pos h
      simp only [h]
      exact Yields.bind (k := 1) (k' := 1) (parseNumberP_some _ l) (fun m _ =>
        Yields.bind (k := 1) (k' := 0) (parseNumberP_some _ l) (fun n _ => Yields.lift _ _))

theorem parseFractionP_yields (s : PyStr) (lang : Option PyStr) : Yields (parseFractionP s lang) (parseFraction s lang) 7 := by
  unfold parseFractionP parseFraction
  split
  · exact Yields.pure _ _
  · exact Yields.bind (k := 5) (k' := 2) (resolveP_yields s lang) (fun l _ => fractionLoopP_yields s l _)

theorem parseP_yields (s : PyStr) (lang : Option PyStr) : Yields (parseP s lang) (parse s lang) 6 := by
  unfold parseP parse
  exact Yields.bind (k := 5) (k' := 1) (resolveP_yields s lang) (fun l _ =>
    Yields.bind (k := 1) (k' := 0) (languageDataP_yields l) (fun _ _ => Yields.lift _ _))

/-- The reply to a call, by the functions of Verif/Model/Parser.lean. -/
def Call.reply : Call → Res Reply
  | .parse s l => do return .text (some (← NumberParser.parse s l))
  | .number s l => do return .number (← parseNumber s l)
  | .ordinal s l => do return .number (← parseOrdinal s l)
  | .fraction s l => do return .text (← parseFraction s l)

theorem call_yields (c : Call) : Yields c.prog c.reply 7 := by
  cases c with
  | parse s l => exact Yields.bind (k := 6) (k' := 1) (parseP_yields s l) (fun _ _ => Yields.pure _ _)
  | number s l => exact Yields.bind (k := 6) (k' := 1) (parseNumberP_yields s l) (fun _ _ => Yields.pure _ _)
  | ordinal s l => exact Yields.bind (k := 7) (k' := 0) (parseOrdinalP_yields s l) (fun _ _ => Yields.pure _ _)
  | fraction s l => exact Yields.bind (k := 7) (k' := 0) (parseFractionP_yields s l) (fun _ _ => Yields.pure _ _)

theorem session_yields (cs : List Call) : Yields (session cs) (.ok (cs.map Call.reply)) (7 * cs.length) := by
  induction cs with
  | nil => exact Yields.pure _ _
  | cons c cs ih =>
    unfold session
    have := Yields.bind (call_yields c).attempt (k' := 7 * cs.length)
      (f := fun r => (do let rs ← session cs; return r :: rs)) (f' := fun r => .ok (r :: cs.map Call.reply))
      (fun r _ => Yields.bind (k' := 0) (f' := fun rs => .ok (r :: rs)) ih (fun _ _ => Yields.pure _ _))
    rw [List.length_cons, show 7 * (cs.length + 1) = 7 + 7 * cs.length from by omega]
    exact this

/-! ### Threads -/

/-- Thread `i` of the machine still has to make at most `k i` steps and will then have its replies. -/
def Machine.Inv (m : Machine) (sessions : List (List Call)) (k : Nat → Nat) : Prop :=
  m.shared.Good ∧ m.threads.length = sessions.length ∧
  ∀ i p cs, m.threads[i]? = some p → sessions[i]? = some cs → Yields p (.ok (cs.map Call.reply)) (k i)

theorem start_inv (ss : List (List Call)) : (Machine.start ss).Inv ss (fun i => 7 * (ss.getD i []).length) := by
  refine ⟨fresh_good, by simp [Machine.start], ?_⟩
  intro i p cs hp hcs
  simp only [Machine.start, List.getElem?_map, hcs, Option.map_some, Option.some.injEq] at hp
  subst hp
  show Yields _ _ (7 * (ss.getD i []).length)
  rw [List.getD_eq_getElem?_getD, hcs]
  exact session_yields cs

theorem step_inv {m : Machine} {ss : List (List Call)} {k : Nat → Nat} (h : m.Inv ss k) (i : Nat) :
    (m.step i).Inv ss (fun j => if j = i then k j - 1 else k j) := by
  obtain ⟨hg, hlen, ht⟩ := h
  unfold Machine.step
  split
  · rename_i w n hp
    have hi : i < m.threads.length := by
      rcases Nat.lt_or_ge i m.threads.length with h | h
      · exact h
      · rw [List.getElem?_eq_none h] at hp; cases hp
    obtain ⟨cs, hcs⟩ : ∃ cs, ss[i]? = some cs := ⟨ss[i]'(by omega), List.getElem?_eq_getElem (by omega)⟩
    have hy := ht i _ cs hp hcs
    cases hk : k i with
    | zero => rw [hk] at hy; exact absurd hy (by simp [Yields])
    | succ k' =>
      rw [hk] at hy
      refine ⟨hy.1 _ hg, by simp [hlen], ?_⟩
      intro j p cs' hp' hcs'
      by_cases hj : j = i
      · subst hj
        rw [List.getElem?_set_self hi] at hp'
        injection hp' with hp'
        subst hp'
        rw [hcs] at hcs'; injection hcs' with hcs'; subst hcs'
        simp only [if_pos rfl, hk]
        exact hy.2 _ hg
      · rw [List.getElem?_set_ne (Ne.symm hj)] at hp'
        simp only [if_neg hj]
        exact ht j p cs' hp' hcs'
  · rename_i hnot
    refine ⟨hg, hlen, ?_⟩
    intro j p cs hp hcs
    have hy := ht j p cs hp hcs
    by_cases hj : j = i
    · subst hj
      cases p with
      | done r =>
        have : r = .ok (cs.map Call.reply) := by cases hk : k j <;> rw [hk] at hy <;> exact hy
        show Yields _ _ _
        cases hk' : (if j = j then k j - 1 else k j) <;> exact this
      | step w n => exact absurd hp (hnot w n)
    · simp only [if_neg hj]; exact hy

theorem schedule_inv {m : Machine} {ss : List (List Call)} {k : Nat → Nat} (h : m.Inv ss k) (sched : List Nat) :
    (m.runSchedule sched).Inv ss (fun j => k j - sched.count j) := by
  unfold Machine.runSchedule
  induction sched generalizing m k with
  | nil => simpa using h
  | cons i sched ih =>
    have := ih (step_inv h i)
    rw [List.foldl_cons]
    refine Eq.mp ?_ this
    congr 1
    funext j
    by_cases hj : j = i
    · subst hj; rw [if_pos rfl, List.count_cons_self]; omega
    · rw [if_neg hj, List.count_cons_of_ne (Ne.symm hj)]

end NumberParser
