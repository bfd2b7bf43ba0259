import Verif.Spec.Generator
import Verif.Proofs.Basic
import Verif.Proofs.Fraction

/-! Helper lemmas about the data generator. -/

set_option linter.unusedSimpArgs false

namespace NumberParser.Gen

open NumberParser Spec

/-! ### Tables -/

theorem Table.get?_set {α : Type} (d : Table α) (k x : PyStr) (v : α) :
    Table.get? (Table.set d k v) x = if k = x then some v else Table.get? d x := by
  induction d with
  | nil => simp [Table.set, Table.get?]
  | cons e d ih =>
    obtain ⟨k', v'⟩ := e
    simp only [Table.set]
    by_cases h : k' = k
    · subst h; by_cases hx : k' = x <;> simp [Table.get?, hx]
    · by_cases hx : k' = x
      · subst hx; simp [Table.get?, h, Ne.symm h]
      · simp [Table.get?, h, hx, ih]

/-- The words of a table. -/
def Table.keys {α : Type} (d : Table α) : List PyStr := d.map (fun e => e.1)

theorem Table.mem_set {α : Type} {d : Table α} {k : PyStr} {v : α} {e : PyStr × α} (h : e ∈ Table.set d k v) : e = (k, v) ∨ e ∈ d := by
  induction d with
  | nil => simp [Table.set] at h; exact .inl h
  | cons e' d ih =>
    obtain ⟨k', v'⟩ := e'
    simp only [Table.set] at h
    by_cases hk : k' = k
    · subst hk; simp at h
      rcases h with h | h
      · exact .inl h
      · exact .inr (List.mem_cons_of_mem _ h)
    · simp [hk] at h
      rcases h with h | h
      · exact .inr (by rw [h]; exact List.mem_cons_self)
      · rcases ih h with h | h
        · exact .inl h
        · exact .inr (List.mem_cons_of_mem _ h)

theorem Table.mem_keys_set {α : Type} (d : Table α) (k x : PyStr) (v : α) : x ∈ Table.keys (Table.set d k v) ↔ x = k ∨ x ∈ (Table.keys d) := by
  induction d with
  | nil => simp [Table.set, Table.keys]
  | cons e d ih =>
    obtain ⟨k', v'⟩ := e
    simp only [Table.set]
    by_cases hk : k' = k
    · subst hk; simp [Table.keys]
    · have : (Table.keys ((k', v') :: Table.set d k v)) = k' :: Table.keys (Table.set d k v) := rfl
      simp only [beq_iff_eq, hk, if_false, this, List.mem_cons, ih]
      have : (Table.keys ((k', v') :: d)) = k' :: (Table.keys d) := rfl
      rw [this, List.mem_cons]
      constructor
      · rintro (h | h | h)
        · exact .inr (.inl h)
        · exact .inl h
        · exact .inr (.inr h)
      · rintro (h | h | h)
        · exact .inr (.inl h)
        · exact .inl h
        · exact .inr (.inr h)

theorem Table.nodup_set {α : Type} {d : Table α} (h : (Table.keys d).Nodup) (k : PyStr) (v : α) : (Table.keys (Table.set d k v)).Nodup := by
  induction d with
  | nil => simp [Table.set, Table.keys]
  | cons e d ih =>
    obtain ⟨k', v'⟩ := e
    have h' : (k' :: (Table.keys d)).Nodup := h
    rw [List.nodup_cons] at h'
    simp only [Table.set]
    by_cases hk : k' = k
    · subst hk; simpa [Table.keys] using h
    · simp only [beq_iff_eq, hk, if_false]
      show (k' :: Table.keys (Table.set d k v)).Nodup
      rw [List.nodup_cons, Table.mem_keys_set]
      exact ⟨by rintro (h | h); exact hk h; exact h'.1 h, ih h'.2⟩

theorem Table.get?_isSome {α : Type} (d : Table α) (x : PyStr) : x ∈ (Table.keys d) ↔ (Table.get? d x).isSome := by
  induction d with
  | nil => simp [Table.keys, Table.get?]
  | cons e d ih =>
    obtain ⟨k, v⟩ := e
    show x ∈ k :: (Table.keys d) ↔ _
    by_cases h : k = x
    · simp [Table.get?, h]
    · simp [Table.get?, h, Ne.symm h, ih]

theorem Table.mem_iff {α : Type} {d : Table α} (h : (Table.keys d).Nodup) (x : PyStr) (v : α) : (x, v) ∈ d ↔ Table.get? d x = some v := by
  induction d with
  | nil => simp [Table.get?]
  | cons e d ih =>
    obtain ⟨k, w⟩ := e
    have h' : (k :: (Table.keys d)).Nodup := h
    rw [List.nodup_cons] at h'
    by_cases hk : k = x
    · subst hk
      simp only [List.mem_cons, Prod.mk.injEq, true_and, Table.get?, beq_self_eq_true, if_true, Option.some.injEq]
      constructor
      · rintro (h | h)
        · exact h.symm
        · exact absurd (List.mem_map.mpr ⟨_, h, rfl⟩) h'.1
      · intro h; exact .inl h.symm
    · simp [Table.get?, hk, Ne.symm hk, ih h'.2]

theorem Table.foldl_set_nodup {α β : Type} (f : β → α) (g : β → PyStr) (l : List β) (d : Table α) (h : (Table.keys d).Nodup) :
    (Table.keys (l.foldl (fun d e => Table.set d (g e) (f e)) d)).Nodup := by
  induction l generalizing d with
  | nil => exact h
  | cons e l ih => exact ih _ (Table.nodup_set h _ _)

theorem Table.update_nodup {α : Type} {d : Table α} (h : (Table.keys d).Nodup) (l : Table α) : (Table.keys (Table.update d l)).Nodup :=
  Table.foldl_set_nodup (fun (e : PyStr × α) => e.2) (fun e => e.1) l d h

theorem Table.get?_update {α : Type} (d l : Table α) (hl : (Table.keys l).Nodup) (x : PyStr) :
    Table.get? (Table.update d l) x = (Table.get? l x).or (Table.get? d x) := by
  unfold Table.update
  induction l generalizing d with
  | nil => simp [Table.get?]
  | cons e l ih =>
    obtain ⟨k, v⟩ := e
    have hl' : (k :: (Table.keys l)).Nodup := hl
    rw [List.nodup_cons] at hl'
    rw [List.foldl_cons, ih _ hl'.2, Table.get?_set]
    by_cases h : k = x
    · subst h
      have : Table.get? l k = none := by
        have := fun h => hl'.1 ((Table.get?_isSome l k).mpr h)
        simpa using this
      simp [this, Table.get?]
    · simp [Table.get?, h]

theorem Table.get?_map {α β : Type} (f : α → β) (d : Table α) (x : PyStr) :
    Table.get? (d.map (fun e => (e.1, f e.2)) : Table β) x = (Table.get? d x).map f := by
  induction d with
  | nil => rfl
  | cons e d ih =>
    obtain ⟨k, v⟩ := e
    by_cases h : k = x <;> simp [Table.get?, h, ih]

theorem Table.keys_map {α β : Type} (f : α → β) (d : Table α) : Table.keys (d.map (fun e => (e.1, f e.2)) : Table β) = (Table.keys d) := by
  simp [Table.keys]

/-- Setting new words one after the other appends them. -/
theorem Table.foldl_set_append {α β : Type} (f : α → β) (l : Table α) (d : Table β) (h : ((Table.keys d) ++ (Table.keys l)).Nodup) :
    l.foldl (fun d e => Table.set d e.1 (f e.2)) d = d ++ l.map (fun e => (e.1, f e.2)) := by
  induction l generalizing d with
  | nil => simp
  | cons e l ih =>
    obtain ⟨k, v⟩ := e
    have hk : k ∉ (Table.keys d) := by
      intro hm
      have := (List.nodup_append.mp h).2.2 k hm k (by simp [Table.keys])
      exact this rfl
    have hset : ∀ d : Table β, k ∉ (Table.keys d) → Table.set d k (f v) = d ++ [(k, f v)] := by
      intro d
      induction d with
      | nil => intro _; rfl
      | cons e' d ih' =>
        obtain ⟨k', v'⟩ := e'
        intro hk
        have hk' : k ∉ k' :: (Table.keys d) := hk
        simp only [List.mem_cons, not_or] at hk'
        simp [Table.set, Ne.symm hk'.1, ih' hk'.2]
    rw [List.foldl_cons, hset d hk, ih]
    · simp
    · have : Table.keys (d ++ [(k, f v)]) ++ Table.keys l = (Table.keys d) ++ (k :: (Table.keys l)) := by simp [Table.keys]
      rw [this]; exact h

/-! ### Sorting -/

theorem mem_insertBy {α : Type} (lt : α → α → Bool) (x y : α) (l : List α) : y ∈ insertBy lt x l ↔ y = x ∨ y ∈ l := by
  induction l with
  | nil => simp [insertBy]
  | cons z l ih =>
    unfold insertBy
    split
    · simp only [List.mem_cons, ih]
      constructor
      · rintro (h | h | h)
        · exact .inr (.inl h)
        · exact .inl h
        · exact .inr (.inr h)
      · rintro (h | h | h)
        · exact .inr (.inl h)
        · exact .inl h
        · exact .inr (.inr h)
    · simp

theorem insertBy_perm {α : Type} (lt : α → α → Bool) (x : α) (l : List α) : (insertBy lt x l).Perm (x :: l) := by
  induction l with
  | nil => exact List.Perm.refl _
  | cons z l ih =>
    unfold insertBy
    split
    · exact (List.Perm.cons z ih).trans (List.Perm.swap x z l)
    · exact List.Perm.refl _

theorem sortBy_perm {α : Type} (lt : α → α → Bool) (l : List α) : (sortBy lt l).Perm l := by
  induction l with
  | nil => exact List.Perm.refl _
  | cons x l ih => exact (insertBy_perm lt x _).trans (List.Perm.cons x ih)

/-- Sorting sorts, if the negation of `lt` is transitive and `lt` is asymmetric. -/
theorem sortBy_sorted {α : Type} (lt : α → α → Bool) (hasym : ∀ a b, lt a b = true → lt b a = false)
    (htrans : ∀ a b c, lt b a = false → lt c b = false → lt c a = false) (l : List α) :
    (sortBy lt l).Pairwise (fun a b => lt b a = false) := by
  induction l with
  | nil => exact List.Pairwise.nil
  | cons x l ih =>
    show (insertBy lt x (sortBy lt l)).Pairwise _
    generalize sortBy lt l = s at ih
    induction s with
    | nil => exact List.pairwise_cons.mpr ⟨by simp, List.Pairwise.nil⟩
    | cons z s ih2 =>
      rw [List.pairwise_cons] at ih
      unfold insertBy
      split
      · rename_i hzx
        rw [List.pairwise_cons]
        refine ⟨?_, ih2 ih.2⟩
        intro y hy
        rcases (mem_insertBy lt x y s).mp hy with hy | hy
        · rw [hy]; exact hasym _ _ hzx
        · exact ih.1 y hy
      · rename_i hzx
        have hzx : lt z x = false := by simpa using hzx
        rw [List.pairwise_cons]
        refine ⟨?_, List.pairwise_cons.mpr ih⟩
        intro y hy
        rcases List.mem_cons.mp hy with hy | hy
        · rw [hy]; exact hzx
        · exact htrans x z y hzx (ih.1 y hy)

/-! ### Comparison of strings and items -/

theorem strLt_irrefl (s : PyStr) : strLt s s = false := by
  induction s with
  | nil => rfl
  | cons a s ih => simp [strLt, ih]

theorem strLt_asymm (s t : PyStr) (h : strLt s t = true) : strLt t s = false := by
  induction s generalizing t with
  | nil => cases t <;> simp [strLt] at h ⊢
  | cons a s ih =>
    cases t with
    | nil => simp [strLt] at h
    | cons b t =>
      simp only [strLt] at h ⊢
      by_cases e : a = b
      · subst e; simp at h ⊢; exact ih t h
      · simp [e, Ne.symm e] at h ⊢; omega

theorem strLt_total (s t : PyStr) (h1 : strLt s t = false) (h2 : strLt t s = false) : s = t := by
  induction s generalizing t with
  | nil => cases t with
    | nil => rfl
    | cons b t => simp [strLt] at h1
  | cons a s ih =>
    cases t with
    | nil => simp [strLt] at h2
    | cons b t =>
      simp only [strLt] at h1 h2
      by_cases e : a = b
      · subst e; simp at h1 h2; rw [ih t h1 h2]
      · simp [e, Ne.symm e] at h1 h2; omega

theorem strLt_trans (s t u : PyStr) (h1 : strLt s t = true) (h2 : strLt t u = true) : strLt s u = true := by
  induction s generalizing t u with
  | nil => cases t with
    | nil => simp [strLt] at h1
    | cons b t => cases u with
      | nil => simp [strLt] at h2
      | cons c u => rfl
  | cons a s ih =>
    cases t with
    | nil => simp [strLt] at h1
    | cons b t => cases u with
      | nil => simp [strLt] at h2
      | cons c u =>
        simp only [strLt] at h1 h2 ⊢
        by_cases e : a = b
        · subst e; simp at h1
          by_cases e' : a = c
          · subst e'; simp at h2 ⊢; exact ih t u h1 h2
          · simp [e'] at h2 ⊢; exact h2
        · simp [e] at h1
          by_cases e' : b = c
          · subst e'; simp at h2; simp [e]; exact h1
          · simp [e'] at h2
            have : a ≠ c := by omega
            simp [this]; omega

/-- `a <= b` on numbers -/
def JNum.Le (a b : JNum) : Prop := a.num * 2 ^ b.exp ≤ b.num * 2 ^ a.exp

theorem JNum.Le.trans {a b c : JNum} (h1 : a.Le b) (h2 : b.Le c) : a.Le c := by
  obtain ⟨A, i⟩ := a; obtain ⟨B, j⟩ := b; obtain ⟨C, k⟩ := c
  simp only [JNum.Le] at *
  have pi : (0 : Int) < 2 ^ i := Int.pow_pos (by decide)
  have pj : (0 : Int) < 2 ^ j := Int.pow_pos (by decide)
  have pk : (0 : Int) < 2 ^ k := Int.pow_pos (by decide)
  generalize (2 : Int) ^ i = p at *
  generalize (2 : Int) ^ j = q at *
  generalize (2 : Int) ^ k = r at *
  apply Int.le_of_mul_le_mul_right _ pj
  have e1 := Int.mul_le_mul_of_nonneg_right h1 (Int.le_of_lt pk)
  have e2 := Int.mul_le_mul_of_nonneg_right h2 (Int.le_of_lt pi)
  calc A * r * q = A * q * r := by rw [Int.mul_assoc, Int.mul_comm r q, ← Int.mul_assoc]
    _ ≤ B * p * r := e1
    _ = B * r * p := by rw [Int.mul_assoc, Int.mul_comm p r, ← Int.mul_assoc]
    _ ≤ C * q * p := e2
    _ = C * p * q := by rw [Int.mul_assoc, Int.mul_comm q p, ← Int.mul_assoc]

theorem JNum.lt_iff (a b : JNum) : a.lt b = true ↔ ¬ b.Le a := by
  simp only [JNum.lt, JNum.Le, decide_eq_true_eq]; omega

theorem JNum.eqv_iff (a b : JNum) : a.eqv b = true ↔ a.Le b ∧ b.Le a := by
  simp only [JNum.eqv, JNum.Le, beq_iff_eq]; omega

theorem JNum.le_total (a b : JNum) : a.Le b ∨ b.Le a := by
  simp only [JNum.Le]; omega

/-- The order of the items: by value, then by word. -/
def ItemLe (a b : PyStr × JNum) : Prop := a.2.Le b.2 ∧ (b.2.Le a.2 → strLt b.1 a.1 = false)

theorem itemLt_false (a b : PyStr × JNum) : itemLt b a = false ↔ ItemLe a b := by
  unfold itemLt ItemLe
  by_cases h : b.2.eqv a.2 = true
  · rw [if_pos h]
    obtain ⟨h1, h2⟩ := (JNum.eqv_iff _ _).mp h
    exact ⟨fun h => ⟨h2, fun _ => h⟩, fun h => h.2 h1⟩
  · rw [if_neg h]
    rw [← Bool.not_eq_true, JNum.lt_iff, Classical.not_not]
    constructor
    · intro hl
      exact ⟨hl, fun h' => absurd ((JNum.eqv_iff _ _).mpr ⟨h', hl⟩) h⟩
    · intro h; exact h.1

theorem strGe_trans (a b c : PyStr) (h1 : strLt b a = false) (h2 : strLt c b = false) : strLt c a = false := by
  cases h : strLt c a with
  | false => rfl
  | true =>
    cases h3 : strLt a b with
    | true => rw [strLt_trans c a b h h3] at h2; exact h2
    | false =>
      have := strLt_total a b h3 h1
      subst this
      rw [h] at h2; exact h2

theorem itemLt_asymm (a b : PyStr × JNum) (h : itemLt a b = true) : itemLt b a = false := by
  rw [itemLt_false]
  have h' : ¬ ItemLe b a := by rw [← itemLt_false, h]; simp
  unfold ItemLe at h' ⊢
  rcases JNum.le_total a.2 b.2 with hl | hl
  · refine ⟨hl, fun hb => ?_⟩
    have : strLt a.1 b.1 = true := by
      cases hs : strLt a.1 b.1 with
      | true => rfl
      | false => exact absurd ⟨hb, fun _ => hs⟩ h'
    exact strLt_asymm _ _ this
  · by_cases hab : a.2.Le b.2
    · refine ⟨hab, fun hb => ?_⟩
      have : strLt a.1 b.1 = true := by
        cases hs : strLt a.1 b.1 with
        | true => rfl
        | false => exact absurd ⟨hb, fun _ => hs⟩ h'
      exact strLt_asymm _ _ this
    · exact absurd ⟨hl, fun h => absurd h hab⟩ h'

theorem itemLt_negtrans (a b c : PyStr × JNum) (h1 : itemLt b a = false) (h2 : itemLt c b = false) : itemLt c a = false := by
  rw [itemLt_false] at *
  refine ⟨h1.1.trans h2.1, fun h => ?_⟩
  exact strGe_trans _ _ _ (h1.2 (h2.1.trans h)) (h2.2 (h.trans h1.1))

/-! ### The tables that are written -/

/-- Extracted and supplementary items together. -/
def mergedTable (extracted : Table Int) (supp : Table JNum) : Table JNum :=
  Table.update (extracted.map (fun e => (e.1, JNum.ofInt e.2))) supp

theorem merged_nodup {extracted : Table Int} (he : (Table.keys extracted).Nodup) (supp : Table JNum) :
    (Table.keys (mergedTable extracted supp)).Nodup :=
  Table.update_nodup (by rw [Table.keys_map]; exact he) supp

theorem orderTable_eq {extracted : Table Int} (he : (Table.keys extracted).Nodup) (supp : Table JNum) :
    orderTable extracted supp = (sortBy itemLt (mergedTable extracted supp)).map (fun e => (e.1, e.2.toInt)) := by
  have hn : (Table.keys (sortBy itemLt (mergedTable extracted supp))).Nodup :=
    ((sortBy_perm itemLt _).map _).nodup_iff.mpr (merged_nodup he supp)
  have := Table.foldl_set_append JNum.toInt (sortBy itemLt (mergedTable extracted supp)) [] (by simpa [Table.keys] using hn)
  simpa [orderTable, mergedTable] using this

theorem orderTable_nodup {extracted : Table Int} (he : (Table.keys extracted).Nodup) (supp : Table JNum) :
    (Table.keys (orderTable extracted supp)).Nodup := by
  rw [orderTable_eq he, Table.keys_map]
  exact ((sortBy_perm itemLt _).map _).nodup_iff.mpr (merged_nodup he supp)

theorem orderTable_mem {extracted : Table Int} (he : (Table.keys extracted).Nodup) {supp : Table JNum}
    (hs : (Table.keys supp).Nodup) (w : PyStr) (n : Int) :
    (w, n) ∈ orderTable extracted supp ↔
      (∃ v, (w, v) ∈ supp ∧ n = v.toInt) ∨ ((∀ v, (w, v) ∉ supp) ∧ (w, n) ∈ extracted) := by
  rw [orderTable_eq he, List.mem_map]
  have key : ∀ v, (w, v) ∈ mergedTable extracted supp ↔
      (w, v) ∈ supp ∨ ((∀ v, (w, v) ∉ supp) ∧ ∃ m, (w, m) ∈ extracted ∧ v = JNum.ofInt m) := by
    intro v
    rw [Table.mem_iff (merged_nodup he supp)]
    unfold mergedTable
    rw [Table.get?_update _ _ hs, Table.get?_map, Table.mem_iff hs]
    have e2 : (∀ v, (w, v) ∉ supp) ↔ Table.get? supp w = none := by
      constructor
      · intro h
        cases hg : Table.get? supp w with
        | none => rfl
        | some v => exact absurd ((Table.mem_iff hs w v).mpr hg) (h v)
      · intro h v hm
        rw [(Table.mem_iff hs w v).mp hm] at h; cases h
    rw [e2]
    cases hg : Table.get? supp w with
    | some u => simp
    | none =>
      simp only [Option.none_or, reduceCtorEq, false_or, true_and, Option.map_eq_some_iff]
      constructor
      · rintro ⟨m, hm, rfl⟩; exact ⟨m, (Table.mem_iff he w m).mpr hm, rfl⟩
      · rintro ⟨m, hm, rfl⟩; exact ⟨m, (Table.mem_iff he w m).mp hm, rfl⟩
  constructor
  · rintro ⟨⟨w', v⟩, hm, he'⟩
    have hm := (sortBy_perm itemLt _).mem_iff.mp hm
    injection he' with h1 h2
    simp only at h1 h2
    subst h1; subst h2
    rcases (key v).mp hm with h | ⟨h, m, hm', rfl⟩
    · exact .inl ⟨v, h, rfl⟩
    · refine .inr ⟨h, ?_⟩
      simpa [JNum.toInt, JNum.ofInt] using hm'
  · rintro (⟨v, h, rfl⟩ | ⟨h, hm⟩)
    · exact ⟨(w, v), (sortBy_perm itemLt _).mem_iff.mpr ((key v).mpr (.inl h)), rfl⟩
    · exact ⟨(w, JNum.ofInt n), (sortBy_perm itemLt _).mem_iff.mpr ((key _).mpr (.inr ⟨h, n, hm, rfl⟩)), by simp [JNum.toInt, JNum.ofInt]⟩

/-- The number is an integer. -/
def JNum.Whole (a : JNum) : Prop := a.num = a.toInt * 2 ^ a.exp

theorem JNum.le_whole {a b : JNum} (ha : a.Whole) (hb : b.Whole) : a.Le b ↔ a.toInt ≤ b.toInt := by
  unfold JNum.Le
  unfold Whole at ha hb
  generalize a.toInt = x at *
  generalize b.toInt = y at *
  rw [ha, hb]
  have pi : (0 : Int) < 2 ^ a.exp := Int.pow_pos (by decide)
  have pj : (0 : Int) < 2 ^ b.exp := Int.pow_pos (by decide)
  generalize (2 : Int) ^ a.exp = p at *
  generalize (2 : Int) ^ b.exp = q at *
  rw [Int.mul_assoc, Int.mul_assoc, Int.mul_comm q p]
  constructor
  · intro h; exact Int.le_of_mul_le_mul_right h (Int.mul_pos pi pj)
  · intro h; exact Int.mul_le_mul_of_nonneg_right h (Int.le_of_lt (Int.mul_pos pi pj))

theorem JNum.toInt_mono {a b : JNum} (h : a.Le b) : a.toInt ≤ b.toInt := by
  obtain ⟨A, i⟩ := a; obtain ⟨B, j⟩ := b
  simp only [JNum.Le, JNum.toInt] at *
  have pi : (0 : Int) < 2 ^ i := Int.pow_pos (by decide)
  have pj : (0 : Int) < 2 ^ j := Int.pow_pos (by decide)
  generalize (2 : Int) ^ i = p at *
  generalize (2 : Int) ^ j = q at *
  -- truncation of A/p and B/q
  rcases Int.lt_or_le A 0 with hA | hA
  · rcases Int.lt_or_le B 0 with hB | hB
    · have e1 : A.tdiv p = -((-A).tdiv p) := by rw [Int.neg_tdiv]; omega
      have e2 : B.tdiv q = -((-B).tdiv q) := by rw [Int.neg_tdiv]; omega
      rw [e1, e2, Int.tdiv_eq_ediv_of_nonneg (by omega), Int.tdiv_eq_ediv_of_nonneg (by omega)]
      apply Int.neg_le_neg
      rw [Int.le_ediv_iff_mul_le pi]
      have h3 := Int.ediv_mul_le (-B) (Int.ne_of_gt pj)
      apply Int.le_of_mul_le_mul_right _ pj
      calc -B / q * p * q = (-B / q * q) * p := by rw [Int.mul_assoc, Int.mul_comm p q, ← Int.mul_assoc]
        _ ≤ -B * p := Int.mul_le_mul_of_nonneg_right h3 (Int.le_of_lt pi)
        _ ≤ -A * q := by rw [Int.neg_mul, Int.neg_mul]; omega
    · have e1 : A.tdiv p ≤ 0 := by
        have e1 : A.tdiv p = -((-A).tdiv p) := by rw [Int.neg_tdiv]; omega
        have := Int.tdiv_nonneg (a := -A) (b := p) (by omega) (Int.le_of_lt pi)
        omega
      have := Int.tdiv_nonneg (a := B) (b := q) hB (Int.le_of_lt pj)
      omega
  · have hB : 0 ≤ B := by
      have h1 := Int.mul_nonneg hA (Int.le_of_lt pj)
      rcases Int.lt_or_le B 0 with hB | hB
      · have := Int.mul_neg_of_neg_of_pos hB pi
        omega
      · exact hB
    rw [Int.tdiv_eq_ediv_of_nonneg hA, Int.tdiv_eq_ediv_of_nonneg hB]
    rw [Int.le_ediv_iff_mul_le pj]
    have h3 := Int.ediv_mul_le A (Int.ne_of_gt pi)
    apply Int.le_of_mul_le_mul_right _ pi
    calc A / p * q * p = (A / p * p) * q := by rw [Int.mul_assoc, Int.mul_comm q p, ← Int.mul_assoc]
      _ ≤ A * q := Int.mul_le_mul_of_nonneg_right h3 (Int.le_of_lt pj)
      _ ≤ B * p := h

theorem orderTable_sorted_value {extracted : Table Int} (he : (Table.keys extracted).Nodup) (supp : Table JNum) :
    (orderTable extracted supp).Pairwise (fun a b => a.2 ≤ b.2) := by
  rw [orderTable_eq he, List.pairwise_map]
  refine (sortBy_sorted itemLt itemLt_asymm itemLt_negtrans _).imp ?_
  intro a b h
  exact JNum.toInt_mono ((itemLt_false a b).mp h).1

theorem orderTable_sorted {extracted : Table Int} (he : (Table.keys extracted).Nodup) {supp : Table JNum}
    (hw : ∀ e ∈ supp, e.2.Whole) :
    (orderTable extracted supp).Pairwise (fun a b => a.2 < b.2 ∨ (a.2 = b.2 ∧ strLt a.1 b.1 = true)) := by
  have hm : ∀ e ∈ mergedTable extracted supp, e.2.Whole := by
    unfold mergedTable Table.update
    have h0 : ∀ e ∈ (extracted.map (fun e => (e.1, JNum.ofInt e.2)) : Table JNum), e.2.Whole := by
      intro e h
      rw [List.mem_map] at h
      obtain ⟨x, _, rfl⟩ := h
      simp [JNum.Whole, JNum.toInt, JNum.ofInt]
    generalize (extracted.map (fun e => (e.1, JNum.ofInt e.2)) : Table JNum) = d at h0
    induction supp generalizing d with
    | nil => exact h0
    | cons x supp ih =>
      rw [List.foldl_cons]
      refine ih (fun e h => hw e (List.mem_cons_of_mem _ h)) _ ?_
      intro e h
      rcases Table.mem_set h with h | h
      · rw [h]; exact hw x List.mem_cons_self
      · exact h0 e h
  rw [orderTable_eq he, List.pairwise_map]
  have hs := sortBy_sorted itemLt itemLt_asymm itemLt_negtrans (mergedTable extracted supp)
  have hn : (sortBy itemLt (mergedTable extracted supp)).Pairwise (fun a b => a.1 ≠ b.1) := by
    have : (Table.keys (sortBy itemLt (mergedTable extracted supp))).Nodup :=
      ((sortBy_perm itemLt _).map _).nodup_iff.mpr (merged_nodup he supp)
    unfold Table.keys at this
    rw [List.Nodup, List.pairwise_map] at this
    exact this
  have hall : ∀ e ∈ sortBy itemLt (mergedTable extracted supp), e.2.Whole :=
    fun e h => hm e ((sortBy_perm itemLt _).mem_iff.mp h)
  refine List.Pairwise.imp_of_mem ?_ (hs.and hn)
  intro a b ha hb h
  have hl := (itemLt_false a b).mp h.1
  have h1 := (JNum.le_whole (hall a ha) (hall b hb)).mp hl.1
  rcases Int.lt_or_eq_of_le h1 with h2 | h2
  · exact .inl h2
  · refine .inr ⟨h2, ?_⟩
    have h3 := hl.2 ((JNum.le_whole (hall b hb) (hall a ha)).mpr (by omega))
    cases h4 : strLt a.1 b.1 with
    | true => rfl
    | false => exact absurd (strLt_total _ _ h4 h3) h.2

end NumberParser.Gen
