import Verif.Spec.Concurrent
import Verif.Proofs.FileRuns

/-! Several runs of the generator at the same time. -/

namespace NumberParser

open Gen Spec

theorem overlay_get (c : Bytes) (o : Nat) (d : Bytes) (i : Nat) :
    (overlay c o d)[i]? = if i < o then (if i < c.length then c[i]? else some 0) else if i < o + d.length then d[i - o]? else c[i]? := by
  have hl : ((c ++ List.replicate (o - c.length) 0).take o).length = o := by
    rw [List.length_take, List.length_append, List.length_replicate]; omega
  unfold overlay
  rw [List.append_assoc]
  by_cases h1 : i < o
  · rw [if_pos h1, List.getElem?_append_left (by omega), List.getElem?_take, if_pos h1]
    by_cases h2 : i < c.length
    · rw [if_pos h2, List.getElem?_append_left h2]
    · rw [if_neg h2, List.getElem?_append_right (by omega), List.getElem?_replicate, if_pos (by omega)]
  · rw [if_neg h1, List.getElem?_append_right (by omega), hl]
    by_cases h2 : i < o + d.length
    · rw [if_pos h2, List.getElem?_append_left (by omega)]
    · rw [if_neg h2, List.getElem?_append_right (by omega), List.getElem?_drop]
      congr 1
      omega

theorem overlay_length (c : Bytes) (o : Nat) (d : Bytes) : (overlay c o d).length = max (o + d.length) c.length := by
  unfold overlay
  simp only [List.length_append, List.length_take, List.length_replicate, List.length_drop]
  omega

theorem piece_length {b : Bytes} {o k : Nat} (h : o + k ≤ b.length) : ((b.drop o).take k).length = k := by
  rw [List.length_take, List.length_drop]; omega

theorem within_overlay {c b : Bytes} {o k : Nat} (h : WrittenWithin c b) (hk : o + k ≤ b.length) : WrittenWithin (overlay c o ((b.drop o).take k)) b := by
  have hp := piece_length hk
  refine ⟨by rw [overlay_length, hp]; have := h.1; omega, fun i x hx => ?_⟩
  rw [overlay_get, hp] at hx
  split at hx
  · split at hx
    · exact h.2 i x hx
    · left; injection hx with hx; exact hx.symm
  · split at hx
    · right
      rw [List.getElem?_take, if_pos (by omega), List.getElem?_drop] at hx
      rw [← hx]; congr 1; omega
    · exact h.2 i x hx

/-- Correct up to a position -/
def UpTo (c b : Bytes) (o : Nat) : Prop := ∀ i, i < o → c[i]? = b[i]?

theorem upTo_overlay {c b : Bytes} {o k m : Nat} (h : UpTo c b m) (hm : m ≤ c.length) (hk : o + k ≤ b.length) :
    UpTo (overlay c o ((b.drop o).take k)) b m := by
  have hp := piece_length hk
  intro i hi
  rw [overlay_get, hp]
  split
  · rw [if_pos (by omega)]; exact h i hi
  · split
    · rw [List.getElem?_take, if_pos (by omega), List.getElem?_drop]; congr 1; omega
    · exact h i hi

theorem upTo_own {c b : Bytes} {o k : Nat} (h : UpTo c b o) (hm : o ≤ c.length) (hk : o + k ≤ b.length) :
    UpTo (overlay c o ((b.drop o).take k)) b (o + k) := by
  have hp := piece_length hk
  intro i hi
  rw [overlay_get, hp]
  split
  · next h1 => rw [if_pos (by omega)]; exact h i h1
  · rw [List.getElem?_take, if_pos (by omega), List.getElem?_drop]; congr 1; omega

theorem upTo_all {c b : Bytes} (h : UpTo c b b.length) (hw : WrittenWithin c b) (hl : b.length ≤ c.length) : c = b := by
  apply List.ext_getElem?
  intro i
  by_cases hi : i < b.length
  · exact h i hi
  · rw [List.getElem?_eq_none (by have := hw.1; omega), List.getElem?_eq_none (by omega)]

/-- What is true of a target at any moment -/
def InOrder (T : Table Bytes) (js : List (List (PyStr × Bytes))) (n : PyStr) (b : Bytes) (S : Table Bytes) (ps : List Process) : Prop :=
  (∀ p ∈ ps, (∀ x ∈ p.todo, x.1 = n → x.2 = b) ∧ ∀ w, p.doing = some w → w.name = n → w.bytes = b) ∧
  ((NotBegun js ps n ∧ Table.get? S n = Table.get? T n) ∨
    ∃ c, Table.get? S n = some c ∧ WrittenWithin c b ∧
      (c = b ∨ ∃ p ∈ ps, ∃ w, p.doing = some w ∧ w.name = n ∧ w.offset ≤ c.length ∧ UpTo c b w.offset))

theorem good_start {T : Table Bytes} {js : List (List (PyStr × Bytes))} {n : PyStr} {b : Bytes} (h : Agreed js n b) : InOrder T js n b T (js.map begin) := by
  refine ⟨?_, .inl ⟨⟨?_, ?_⟩, rfl⟩⟩
  · intro p hp
    obtain ⟨j, hj, rfl⟩ := List.mem_map.mp hp
    exact ⟨h j hj, fun w hw => by cases hw⟩
  · intro p hp w hw
    obtain ⟨j, hj, rfl⟩ := List.mem_map.mp hp
    cases hw
  · rw [List.map_map]; rfl

theorem good_step {T : Table Bytes} {js : List (List (PyStr × Bytes))} {n : PyStr} {b : Bytes} {S S' : Table Bytes} {xs ys : List Process}
    {p p' : Process} (h : InOrder T js n b S (xs ++ p :: ys)) (hs : ProcessStep S p S' p') : InOrder T js n b S' (xs ++ p' :: ys) := by
  obtain ⟨hall, hg⟩ := h
  have others : ∀ q, q ∈ xs ∨ q ∈ ys → q ∈ xs ++ p :: ys ∧ q ∈ xs ++ p' :: ys := by
    rintro q (h | h)
    · exact ⟨by simp [h], by simp [h]⟩
    · exact ⟨by simp [h], by simp [h]⟩
  have cases' : ∀ {q r : Process}, q ∈ xs ++ r :: ys → q = r ∨ (q ∈ xs ∨ q ∈ ys) := by
    intro q r hq
    rcases List.mem_append.mp hq with h | h
    · exact .inr (.inl h)
    · rcases List.mem_cons.mp h with h | h
      · exact .inl h
      · exact .inr (.inr h)
  have hp := hall p (by simp)
  -- what each process has to do stays agreed
  have hall' : ((∀ x ∈ p'.todo, x.1 = n → x.2 = b) ∧ ∀ w, p'.doing = some w → w.name = n → w.bytes = b) →
      ∀ q ∈ xs ++ p' :: ys, (∀ x ∈ q.todo, x.1 = n → x.2 = b) ∧ ∀ w, q.doing = some w → w.name = n → w.bytes = b := by
    intro h q hq
    rcases cases' hq with rfl | hq
    · exact h
    · exact hall q (others q hq).1
  -- a process that writes another target
  have keep : Table.get? S' n = Table.get? S n → (∀ w, p.doing = some w → w.name = n → False) → (∀ w, p'.doing = some w → w.name = n → False) →
      p.todo.filter (fun x => x.1 == n) = p'.todo.filter (fun x => x.1 == n) →
      ((NotBegun js (xs ++ p' :: ys) n ∧ Table.get? S' n = Table.get? T n) ∨
        ∃ c, Table.get? S' n = some c ∧ WrittenWithin c b ∧
          (c = b ∨ ∃ q ∈ xs ++ p' :: ys, ∃ w, q.doing = some w ∧ w.name = n ∧ w.offset ≤ c.length ∧ UpTo c b w.offset)) := by
    intro he h1 h2 h3
    rcases hg with ⟨⟨hq, hf⟩, hT⟩ | ⟨c, hc, hw, hr⟩
    · refine .inl ⟨⟨?_, ?_⟩, by rw [he]; exact hT⟩
      · intro q hq' w hw hn
        rcases cases' hq' with rfl | hq'
        · exact h2 w hw hn
        · exact hq q (others q hq').1 w hw hn
      · rw [← hf]
        simp only [List.map_append, List.map_cons, h3]
    · refine .inr ⟨c, by rw [he]; exact hc, hw, ?_⟩
      rcases hr with hr | ⟨q, hq, w, hd, hn, ho, hu⟩
      · exact .inl hr
      · rcases cases' hq with rfl | hq
        · exact absurd hn (h1 w hd)
        · exact .inr ⟨q, (others q hq).2, w, hd, hn, ho, hu⟩
  cases hs with
  | opens m d todo =>
    have ha := hall' ⟨fun x hx => hp.1 x (by simp [hx]), fun w hw hn => by
      injection hw with hw
      subst hw
      exact hp.1 (m, d) (by simp) hn⟩
    by_cases hm : m = n
    · subst hm
      refine ⟨ha, .inr ⟨[], by rw [Table.get?_set, if_pos rfl], ⟨Nat.zero_le _, fun i x hx => by simp at hx⟩, .inr ⟨⟨some ⟨m, d, 0⟩, todo⟩, by simp, ⟨m, d, 0⟩, rfl, rfl, Nat.zero_le _, ?_⟩⟩⟩
      intro i hi
      exact absurd hi (Nat.not_lt_zero _)
    · refine ⟨ha, keep (by rw [Table.get?_set, if_neg hm]) (fun w hw => by cases hw) (fun w hw hn => by injection hw with hw; subst hw; exact hm hn) ?_⟩
      rw [List.filter_cons, if_neg (by simpa using hm)]
  | writes m d c o k todo hc hk =>
    have ha := hall' ⟨fun x hx => hp.1 x hx, fun w hw hn => by
      injection hw with hw
      subst hw
      exact hp.2 ⟨m, d, o⟩ rfl hn⟩
    by_cases hm : m = n
    · subst hm
      have hd : d = b := hp.2 ⟨m, d, o⟩ rfl rfl
      subst hd
      have hget : Table.get? (Table.set S m (overlay c o ((d.drop o).take k))) m = some (overlay c o ((d.drop o).take k)) := by
        rw [Table.get?_set, if_pos rfl]
      refine ⟨ha, ?_⟩
      rcases hg with ⟨⟨hq, _⟩, _⟩ | ⟨c', hc', hw, hr⟩
      · exact absurd rfl (hq ⟨some ⟨m, d, o⟩, todo⟩ (by simp) ⟨m, d, o⟩ rfl)
      · rw [hc] at hc'
        injection hc' with e
        subst e
        refine .inr ⟨_, hget, within_overlay hw hk, ?_⟩
        have hlen := overlay_length c o ((d.drop o).take k)
        rw [piece_length hk] at hlen
        rcases hr with rfl | ⟨q, hq, w, hd, hn, ho, hu⟩
        · left
          apply upTo_all
          · exact upTo_overlay (m := c.length) (fun i _ => rfl) (Nat.le_refl _) hk
          · exact within_overlay ⟨Nat.le_refl _, fun i x hx => .inr hx⟩ hk
          · omega
        · right
          rcases cases' hq with rfl | hq
          · injection hd with hd
            subst hd
            exact ⟨⟨some ⟨m, d, o + k⟩, todo⟩, by simp, ⟨m, d, o + k⟩, rfl, rfl, by rw [hlen]; simp only; omega, upTo_own hu ho hk⟩
          · exact ⟨q, (others q hq).2, w, hd, hn, by rw [hlen]; omega, upTo_overlay hu ho hk⟩
    · refine ⟨ha, keep (by rw [Table.get?_set, if_neg hm]) ?_ ?_ rfl⟩
      · intro w hw hn; injection hw with hw; subst hw; exact hm hn
      · intro w hw hn; injection hw with hw; subst hw; exact hm hn
  | closes m d todo =>
    have ha := hall' ⟨fun x hx => hp.1 x hx, fun w hw hn => by cases hw⟩
    by_cases hm : m = n
    · subst hm
      have hd : d = b := hp.2 ⟨m, d, _⟩ rfl rfl
      subst hd
      refine ⟨ha, ?_⟩
      rcases hg with ⟨⟨hq, _⟩, _⟩ | ⟨c, hc, hw, hr⟩
      · exact absurd rfl (hq ⟨some ⟨m, d, d.length⟩, todo⟩ (by simp) ⟨m, d, _⟩ rfl)
      · refine .inr ⟨c, hc, hw, ?_⟩
        rcases hr with hr | ⟨q, hq, w, hd, hn, ho, hu⟩
        · exact .inl hr
        · rcases cases' hq with rfl | hq
          · injection hd with hd
            subst hd
            exact .inl (upTo_all hu hw ho)
          · exact .inr ⟨q, (others q hq).2, w, hd, hn, ho, hu⟩
    · refine ⟨ha, keep rfl ?_ (fun w hw => by cases hw) rfl⟩
      intro w hw hn; injection hw with hw; subst hw; exact hm hn

theorem reachable_good {T : Table Bytes} {js : List (List (PyStr × Bytes))} {n : PyStr} {b : Bytes} (h : Agreed js n b) {S : Table Bytes}
    {ps : List Process} (hr : Reachable T js S ps) : InOrder T js n b S ps := by
  induction hr with
  | start => exact good_start h
  | step _ hs ih => exact good_step ih hs

/-! ### What a run does -/

theorem jobs_writeAll (fs : List LangBytes) (T : Table Bytes) : (writeAllBytes fs T).1 = (jobs fs).foldl (fun d x => Table.set d x.1 x.2) T := by
  induction fs generalizing T with
  | nil => rfl
  | cons f fs ih =>
    unfold jobs
    cases h : newTextBytes f with
    | error e => rw [writeAll_cons_error (T' := T) (e := e) (by unfold writeOneBytes; rw [h])]; rfl
    | ok o =>
      cases o with
      | none => rw [writeAll_cons_ok (T' := T) (by unfold writeOneBytes; rw [h])]; exact ih T
      | some text =>
        simp only
        cases he : utf8Encode text with
        | none =>
          rw [writeAll_cons_error (T' := Table.set T (targetName f.name) []) (e := .encode) (by unfold writeOneBytes; rw [h]; simp only; rw [he])]; rfl
        | some b =>
          rw [writeAll_cons_ok (T' := Table.set T (targetName f.name) b) (by unfold writeOneBytes; rw [h]; simp only; rw [he]), ih]
          rfl

theorem jobs_mem {fs : List LangBytes} (hu : ∀ f ∈ fs, Usual f) (hok : ∀ f ∈ fs, ¬ FailsBytes f) (n : PyStr) (b : Bytes) :
    (n, b) ∈ jobs fs ↔ ∃ f ∈ fs, targetName f.name = n ∧ ModuleBytes f b := by
  induction fs with
  | nil => simp [jobs]
  | cons f fs ih =>
    have ih := ih (fun g hg => hu g (by simp [hg])) (fun g hg => hok g (by simp [hg]))
    have hf := hok f (by simp)
    have split : (∃ g ∈ f :: fs, targetName g.name = n ∧ ModuleBytes g b) ↔
        (targetName f.name = n ∧ ModuleBytes f b) ∨ ∃ g ∈ fs, targetName g.name = n ∧ ModuleBytes g b := by simp
    rw [split]
    unfold jobs
    cases h : newTextBytes f with
    | error e =>
      exfalso
      apply hf
      refine ⟨fun hl => ?_, ?_⟩
      · rw [(newTextBytes_none _).mpr hl] at h; cases h
      · rintro ⟨b, t, hm, _⟩; rw [newTextBytes_of _ _ hm] at h; cases h
    | ok o =>
      cases o with
      | none =>
        have hl := (newTextBytes_none f).mp h
        rw [ih]
        refine ⟨.inr, ?_⟩
        rintro (⟨_, t, ht, _⟩ | h)
        · exact absurd hl (not_leftOut_module ht)
        · exact h
      | some text =>
        have hm := (newTextBytes_some f (hu f (by simp)) text).mp h
        simp only
        cases he : utf8Encode text with
        | none => exact absurd (unencodable_fails hm ((encode_none _).mp he)) hf
        | some b' =>
          have hb : ModuleBytes f b' := ⟨text, hm, (utf8Encode_iff _ _).mp he⟩
          rw [List.mem_cons, ih]
          constructor
          · rintro (h | h)
            · injection h with h1 h2
              exact .inl ⟨h1.symm, h2 ▸ hb⟩
            · exact .inr h
          · rintro (⟨h1, h2⟩ | h)
            · left; rw [moduleBytes_unique h2 hb, h1]
            · exact .inr h

/-! ### Targets of no process -/

theorem reachable_other {T : Table Bytes} {js : List (List (PyStr × Bytes))} {n : PyStr} (h : ∀ j ∈ js, ∀ x ∈ j, x.1 ≠ n) {S : Table Bytes}
    {ps : List Process} (hr : Reachable T js S ps) :
    Table.get? S n = Table.get? T n ∧ ∀ p ∈ ps, (∀ x ∈ p.todo, x.1 ≠ n) ∧ ∀ w, p.doing = some w → w.name ≠ n := by
  induction hr with
  | start =>
    refine ⟨rfl, fun p hp => ?_⟩
    obtain ⟨j, hj, rfl⟩ := List.mem_map.mp hp
    exact ⟨h j hj, fun w hw => by cases hw⟩
  | @step S S' xs ys p p' _ hs ih =>
    obtain ⟨h1, h2⟩ := ih
    have hp := h2 p (by simp)
    have key : ∀ {q : Process}, ((∀ x ∈ q.todo, x.1 ≠ n) ∧ ∀ w, q.doing = some w → w.name ≠ n) →
        ∀ r ∈ xs ++ q :: ys, (∀ x ∈ r.todo, x.1 ≠ n) ∧ ∀ w, r.doing = some w → w.name ≠ n := by
      intro q hq r hr
      rcases List.mem_append.mp hr with hr | hr
      · exact h2 r (by simp [hr])
      · rcases List.mem_cons.mp hr with rfl | hr
        · exact hq
        · exact h2 r (by simp [hr])
    cases hs with
    | opens m d todo =>
      have hm : m ≠ n := hp.1 (m, d) (by simp)
      refine ⟨by rw [Table.get?_set, if_neg hm]; exact h1, key ⟨fun x hx => hp.1 x (by simp [hx]), fun w hw => ?_⟩⟩
      injection hw with hw; subst hw; exact hm
    | writes m d c o k todo hc hk =>
      have hm : m ≠ n := hp.2 ⟨m, d, o⟩ rfl
      refine ⟨by rw [Table.get?_set, if_neg hm]; exact h1, key ⟨hp.1, fun w hw => ?_⟩⟩
      injection hw with hw; subst hw; exact hm
    | closes m d todo => exact ⟨h1, key ⟨hp.1, fun w hw => by cases hw⟩⟩

/-! ### Every execution can be completed -/

theorem reachable_open {T : Table Bytes} {js : List (List (PyStr × Bytes))} {S : Table Bytes} {ps : List Process} (hr : Reachable T js S ps) :
    ∀ p ∈ ps, ∀ w, p.doing = some w → w.offset ≤ w.bytes.length ∧ ∃ c, Table.get? S w.name = some c := by
  induction hr with
  | start =>
    intro p hp w hw
    obtain ⟨j, hj, rfl⟩ := List.mem_map.mp hp
    cases hw
  | @step S S' xs ys p p' _ hs ih =>
    have hset : ∀ (m : PyStr) (d : Bytes) (w : OpenFile), (∃ c, Table.get? S w.name = some c) → ∃ c, Table.get? (Table.set S m d) w.name = some c := by
      rintro m d w ⟨c, hc⟩
      rw [Table.get?_set]
      split
      · exact ⟨d, rfl⟩
      · exact ⟨c, hc⟩
    have hp := ih p (by simp)
    intro r hr w hw
    have old : r ∈ xs ++ p :: ys → w.offset ≤ w.bytes.length ∧ ∃ c, Table.get? S' w.name = some c := by
      intro hr
      obtain ⟨h1, h2⟩ := ih r hr w hw
      refine ⟨h1, ?_⟩
      cases hs with
      | opens m d todo => exact hset m _ w h2
      | writes m d c o k todo hc hk => exact hset m _ w h2
      | closes m d todo => exact h2
    rcases List.mem_append.mp hr with hr | hr
    · exact old (by simp [hr])
    · rcases List.mem_cons.mp hr with rfl | hr
      · cases hs with
        | opens m d todo =>
          injection hw with hw; subst hw
          exact ⟨Nat.zero_le _, [], by rw [Table.get?_set, if_pos rfl]⟩
        | writes m d c o k todo hc hk =>
          injection hw with hw; subst hw
          exact ⟨hk, _, by rw [Table.get?_set, if_pos rfl]⟩
        | closes m d todo => cases hw
      · exact old (by simp [hr])

theorem reachable_close {T : Table Bytes} {js : List (List (PyStr × Bytes))} {S : Table Bytes} {xs ys : List Process} {p : Process}
    (hr : Reachable T js S (xs ++ p :: ys)) : ∃ S', Reachable T js S' (xs ++ ⟨none, p.todo⟩ :: ys) := by
  rcases p with ⟨doing, todo⟩
  cases doing with
  | none => exact ⟨S, hr⟩
  | some w =>
    rcases w with ⟨n, b, o⟩
    obtain ⟨ho, c, hc⟩ := reachable_open hr ⟨some ⟨n, b, o⟩, todo⟩ (by simp) ⟨n, b, o⟩ rfl
    simp only at ho hc
    have h1 := Reachable.step hr (.writes S n b c o (b.length - o) todo hc (by omega))
    rw [show o + (b.length - o) = b.length by omega] at h1
    exact ⟨_, .step h1 (.closes _ n b todo)⟩

theorem reachable_finish {T : Table Bytes} {js : List (List (PyStr × Bytes))} {xs ys : List Process} (todo : List (PyStr × Bytes)) :
    ∀ {S : Table Bytes}, Reachable T js S (xs ++ ⟨none, todo⟩ :: ys) → ∃ S', Reachable T js S' (xs ++ ⟨none, []⟩ :: ys) := by
  induction todo with
  | nil => intro S hr; exact ⟨S, hr⟩
  | cons x todo ih =>
    intro S hr
    obtain ⟨S', h⟩ := reachable_close (.step hr (.opens S x.1 x.2 todo))
    exact ih h

theorem reachable_finish_all {T : Table Bytes} {js : List (List (PyStr × Bytes))} (ys : List Process) : ∀ {S : Table Bytes} (xs : List Process),
    (∀ p ∈ xs, Finished p) → Reachable T js S (xs ++ ys) → ∃ S' ps, Reachable T js S' ps ∧ ∀ p ∈ ps, Finished p := by
  induction ys with
  | nil => intro S xs hx hr; exact ⟨S, xs, by simpa using hr, hx⟩
  | cons p ys ih =>
    intro S xs hx hr
    obtain ⟨S1, h1⟩ := reachable_close hr
    obtain ⟨S2, h2⟩ := reachable_finish p.todo h1
    refine ih (S := S2) (xs ++ [⟨none, []⟩]) ?_ (by simpa using h2)
    intro q hq
    rcases List.mem_append.mp hq with hq | hq
    · exact hx q hq
    · rw [List.mem_singleton] at hq; subst hq; exact ⟨rfl, rfl⟩

/-! ### One process -/

def setAll (T : Table Bytes) (js : List (PyStr × Bytes)) : Table Bytes := js.foldl (fun d x => Table.set d x.1 x.2) T

theorem overlay_next {b : Bytes} {o k : Nat} (hk : o + k ≤ b.length) : overlay (b.take o) o ((b.drop o).take k) = b.take (o + k) := by
  unfold overlay
  have hl : (b.take o).length = o := by rw [List.length_take]; omega
  have hd : (b.take o).drop (o + ((b.drop o).take k).length) = [] := List.drop_eq_nil_of_le (by omega)
  rw [hl, Nat.sub_self, List.replicate_zero, List.append_nil, List.take_take, Nat.min_self, hd, List.append_nil, List.take_add]

theorem reachable_alone {T : Table Bytes} {j : List (PyStr × Bytes)} {S : Table Bytes} {ps : List Process} (hr : Reachable T [j] S ps) :
    ∃ p done, ps = [p] ∧
      match p.doing with
      | none => j = done ++ p.todo ∧ ∀ m, Table.get? S m = Table.get? (setAll T done) m
      | some w => j = done ++ (w.name, w.bytes) :: p.todo ∧ w.offset ≤ w.bytes.length ∧
          ∀ m, Table.get? S m = Table.get? (Table.set (setAll T done) w.name (w.bytes.take w.offset)) m := by
  induction hr with
  | start => exact ⟨begin j, [], rfl, rfl, fun m => rfl⟩
  | @step S S' xs ys p p' _ hs ih =>
    obtain ⟨q, done, e, h⟩ := ih
    have hx : xs = [] ∧ ys = [] ∧ p = q := by
      cases xs with
      | nil => injection e with e1 e2; exact ⟨rfl, e2, e1⟩
      | cons x xs => injection e with _ e2; simp at e2
    obtain ⟨rfl, rfl, rfl⟩ := hx
    cases hs with
    | opens m d todo =>
      obtain ⟨h1, h2⟩ := h
      refine ⟨_, done, rfl, h1, Nat.zero_le _, fun x => ?_⟩
      show Table.get? (Table.set S m []) x = Table.get? (Table.set (setAll T done) m []) x
      rw [Table.get?_set, Table.get?_set, h2]
    | writes m d c o k todo hc hk =>
      obtain ⟨h1, h2, h3⟩ := h
      have e : c = d.take o := by
        have := h3 m
        rw [hc, Table.get?_set, if_pos rfl] at this
        injection this
      refine ⟨_, done, rfl, h1, hk, fun x => ?_⟩
      show Table.get? (Table.set S m (overlay c o ((d.drop o).take k))) x = Table.get? (Table.set (setAll T done) m (d.take (o + k))) x
      rw [e, overlay_next hk, Table.get?_set, Table.get?_set, h3, Table.get?_set]
      split <;> rfl
    | closes m d todo =>
      obtain ⟨h1, h2, h3⟩ := h
      refine ⟨_, done ++ [(m, d)], rfl, by simpa using h1, fun x => ?_⟩
      rw [h3]
      show Table.get? (Table.set (setAll T done) m (d.take d.length)) x = _
      rw [List.take_length]
      unfold setAll
      rw [List.foldl_append]
      rfl

end NumberParser
