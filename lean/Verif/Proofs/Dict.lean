import Verif.Proofs.Basic

/-! Helper lemmas about dictionaries. -/

namespace NumberParser

theorem Dict.get?_set (d : Dict) (k x : PyStr) (v : Nat) :
    Dict.get? (Dict.set d k v) x = if k = x then some v else Dict.get? d x := by
  induction d with
  | nil => simp [Dict.set, Dict.get?]
  | cons e d ih =>
    obtain ⟨k', v'⟩ := e
    simp only [Dict.set]
    by_cases h : k' = k
    · subst h; by_cases hx : k' = x <;> simp [Dict.get?, hx]
    · by_cases hx : k' = x
      · subst hx; simp [Dict.get?, h, Ne.symm h]
      · simp [Dict.get?, h, hx, ih]

theorem Dict.get?_append (a b : Dict) (x : PyStr) :
    Dict.get? (a ++ b) x = (Dict.get? a x).or (Dict.get? b x) := by
  induction a with
  | nil => simp [Dict.get?]
  | cons e a ih =>
    obtain ⟨k, v⟩ := e
    by_cases h : k = x <;> simp [Dict.get?, h, ih]

theorem Dict.get?_merge (a b : Dict) (x : PyStr) :
    Dict.get? (Dict.merge a b) x = (Dict.get? b.reverse x).or (Dict.get? a x) := by
  unfold Dict.merge
  induction b generalizing a with
  | nil => simp [Dict.get?]
  | cons e b ih =>
    obtain ⟨k, v⟩ := e
    rw [List.foldl_cons, ih, List.reverse_cons, Dict.get?_append, Dict.get?_set]
    cases Dict.get? b.reverse x with
    | some w => simp
    | none => by_cases h : k = x <;> simp [Dict.get?, h]

theorem Dict.get?_none_iff (d : Dict) (x : PyStr) : Dict.get? d x = none ↔ ∀ e ∈ d, e.1 ≠ x := by
  induction d with
  | nil => simp [Dict.get?]
  | cons e d ih =>
    obtain ⟨k, v⟩ := e
    by_cases h : k = x <;> simp [Dict.get?, h, ih]

theorem Dict.get?_mem {d : Dict} {x : PyStr} {v : Nat} (h : Dict.get? d x = some v) : (x, v) ∈ d := by
  induction d with
  | nil => simp [Dict.get?] at h
  | cons e d ih =>
    obtain ⟨k, w⟩ := e
    by_cases hk : k = x
    · simp [Dict.get?, hk] at h; simp [hk, h]
    · simp [Dict.get?, hk] at h; exact List.mem_cons_of_mem _ (ih h)

theorem Dict.mem_eq_any (d : Dict) (x : PyStr) : Dict.mem d x = d.any (fun e => e.1 == x) := by
  unfold Dict.mem
  induction d with
  | nil => rfl
  | cons e d ih =>
    obtain ⟨k, w⟩ := e
    by_cases hk : k = x <;> simp [Dict.get?, hk, ih]

theorem Dict.mem_iff (d : Dict) (x : PyStr) : Dict.mem d x = true ↔ ∃ v, Dict.get? d x = some v := by
  unfold Dict.mem; rw [Option.isSome_iff_exists]

theorem Dict.mem_false_iff (d : Dict) (x : PyStr) : Dict.mem d x = false ↔ Dict.get? d x = none := by
  unfold Dict.mem; simp

theorem Dict.mem_of_mem {d : Dict} {e : PyStr × Nat} (h : e ∈ d) : Dict.mem d e.1 = true := by
  rw [Dict.mem_eq_any, List.any_eq_true]; exact ⟨e, h, by simp⟩

theorem Dict.mem_merge (a b : Dict) (x : PyStr) :
    Dict.mem (Dict.merge a b) x = (Dict.mem a x || Dict.mem b x) := by
  have h : Dict.mem b.reverse x = Dict.mem b x := by
    rw [Dict.mem_eq_any, Dict.mem_eq_any, List.any_reverse]
  have h2 : Dict.mem (Dict.merge a b) x = (Dict.mem b.reverse x || Dict.mem a x) := by
    unfold Dict.mem; rw [Dict.get?_merge, Option.isSome_or]
  rw [h2, h, Bool.or_comm]

/-- The keys are distinct. -/
def Dict.NodupKeys (d : Dict) : Prop := (d.map Prod.fst).Nodup

theorem Dict.set_keys (d : Dict) (k : PyStr) (v : Nat) :
    (Dict.set d k v).map Prod.fst = if Dict.mem d k then d.map Prod.fst else d.map Prod.fst ++ [k] := by
  induction d with
  | nil => rfl
  | cons e d ih =>
    obtain ⟨k', v'⟩ := e
    by_cases h : k' = k
    · simp [Dict.set, h, Dict.mem, Dict.get?]
    · have : Dict.mem ((k', v') :: d) k = Dict.mem d k := by simp [Dict.mem, Dict.get?, h]
      simp only [Dict.set, beq_iff_eq, h, if_false, List.map_cons, ih, this]
      split <;> simp

theorem Dict.NodupKeys.set {d : Dict} (h : d.NodupKeys) (k : PyStr) (v : Nat) : (Dict.set d k v).NodupKeys := by
  unfold NodupKeys
  rw [Dict.set_keys]
  split
  · exact h
  · rename_i hm
    rw [List.nodup_append]
    refine ⟨h, by simp, ?_⟩
    intro a ha b hb hab
    simp at hb; subst hb; subst hab
    apply hm
    simp only [List.mem_map] at ha
    obtain ⟨e, he, rfl⟩ := ha
    exact Dict.mem_of_mem he

theorem Dict.NodupKeys.merge {a : Dict} (h : a.NodupKeys) (b : Dict) : (Dict.merge a b).NodupKeys := by
  unfold Dict.merge
  induction b generalizing a with
  | nil => exact h
  | cons e b ih => exact ih (h.set _ _)

theorem Dict.get?_of_mem {d : Dict} (h : d.NodupKeys) {e : PyStr × Nat} (he : e ∈ d) :
    Dict.get? d e.1 = some e.2 := by
  induction d with
  | nil => simp at he
  | cons f d ih =>
    obtain ⟨k, w⟩ := f
    unfold NodupKeys at h
    simp only [List.map_cons, List.nodup_cons] at h
    rcases List.mem_cons.mp he with rfl | he'
    · simp [Dict.get?]
    · have : k ≠ e.1 := by
        intro hk; apply h.1; rw [hk]; exact List.mem_map_of_mem he'
      simp [Dict.get?, this]; exact ih h.2 he'

theorem Dict.get?_reverse {d : Dict} (h : d.NodupKeys) (x : PyStr) : Dict.get? d.reverse x = Dict.get? d x := by
  cases hr : Dict.get? d.reverse x with
  | none =>
    rw [eq_comm, Dict.get?_none_iff]; rw [Dict.get?_none_iff] at hr
    intro e he; exact hr e (List.mem_reverse.mpr he)
  | some v =>
    have := Dict.get?_mem hr
    exact (Dict.get?_of_mem h (List.mem_reverse.mp this)).symm

theorem Dict.get?_merge' (a : Dict) {b : Dict} (hb : b.NodupKeys) (x : PyStr) :
    Dict.get? (Dict.merge a b) x = (Dict.get? b x).or (Dict.get? a x) := by
  rw [Dict.get?_merge, Dict.get?_reverse hb]

theorem normalizeDict_nodup (d : Dict) : (normalizeDict d).NodupKeys := by
  have : normalizeDict d = Dict.merge [] (d.map (fun e => (stripAccents e.1, e.2))) := by
    unfold normalizeDict Dict.merge; rw [List.foldl_map]
  rw [this]
  exact Dict.NodupKeys.merge (by simp [Dict.NodupKeys]) _

end NumberParser
