import Verif.Proofs.Fraction
import Verif.Proofs.Render
import Verif.Proofs.Units

/-! Strings of plain characters that occur in a text occur in the comparison form of one of its tokens. -/

set_option linter.unusedSimpArgs false

namespace NumberParser
open Spec

set_option maxRecDepth 100000

/-! ### Comparison forms keep plain characters -/

/-- A character that is its own comparison form and starts a new run of the canonical ordering. -/
def fixedChar (c : Nat) : Bool := c != 0x3a3 && lowerChar c == [c] && decompChar c == [c] && ccc c == 0 && !isMn c

theorem lowerGo_append (rev a b : PyStr) : ∃ x, lowerGo rev (a ++ b) = x ++ lowerGo (a.reverse ++ rev) b := by
  induction a generalizing rev with
  | nil => exact ⟨[], rfl⟩
  | cons c cs ih =>
    obtain ⟨x, hx⟩ := ih (c :: rev)
    refine ⟨(if c = 0x3a3 then [if casedNext rev && !casedNext (cs ++ b) then 0x3c2 else 0x3c3] else lowerChar c) ++ x, ?_⟩
    rw [List.cons_append, lowerGo, hx]; simp

theorem lowerGo_fixed {p : PyStr} (h : ∀ c ∈ p, fixedChar c = true) (rev b : PyStr) :
    ∃ rev', lowerGo rev (p ++ b) = p ++ lowerGo rev' b := by
  induction p generalizing rev with
  | nil => exact ⟨rev, rfl⟩
  | cons c cs ih =>
    obtain ⟨r, hr⟩ := ih (fun x hx => h x (List.mem_cons_of_mem _ hx)) (c :: rev)
    have hc := h c List.mem_cons_self
    simp only [fixedChar, Bool.and_eq_true, bne_iff_ne, beq_iff_eq] at hc
    refine ⟨r, ?_⟩
    rw [List.cons_append, lowerGo, if_neg hc.1.1.1.1, hc.1.1.1.2, hr]; rfl

theorem insertCcc_zero {c : Nat} (h : ccc c = 0) (s : PyStr) : insertCcc c s = c :: s := by
  cases s with
  | nil => rfl
  | cons d ds =>
    rw [insertCcc, if_neg]
    rw [h]; omega

theorem insertCcc_before {c d : Nat} (h : ccc d = 0) (x s : PyStr) : ∃ y, insertCcc c (x ++ d :: s) = y ++ d :: s := by
  induction x with
  | nil => refine ⟨[c], ?_⟩; rw [List.nil_append, insertCcc, if_neg (by rw [h]; simp)]; rfl
  | cons e es ih =>
    obtain ⟨y, hy⟩ := ih
    rw [List.cons_append, insertCcc]
    split
    · exact ⟨e :: y, by rw [hy]; rfl⟩
    · exact ⟨c :: e :: es, rfl⟩

theorem canonicalOrder_fixed {p : PyStr} (h : ∀ c ∈ p, ccc c = 0) (b : PyStr) : canonicalOrder (p ++ b) = p ++ canonicalOrder b := by
  induction p with
  | nil => rfl
  | cons c cs ih =>
    rw [List.cons_append, canonicalOrder, ih (fun x hx => h x (List.mem_cons_of_mem _ hx)), insertCcc_zero (h c List.mem_cons_self)]; rfl

theorem canonicalOrder_before {c : Nat} (h : ccc c = 0) (a s : PyStr) : ∃ y, canonicalOrder (a ++ c :: s) = y ++ c :: canonicalOrder s := by
  induction a with
  | nil => exact ⟨[], by rw [List.nil_append, canonicalOrder, insertCcc_zero h]; rfl⟩
  | cons d ds ih =>
    obtain ⟨y, hy⟩ := ih
    rw [List.cons_append, canonicalOrder, hy]
    exact insertCcc_before h _ _

/-- Plain characters stay in place in the comparison form. -/
theorem norm_occurs {p t : PyStr} (hne : p ≠ []) (hp : ∀ c ∈ p, fixedChar c = true) (h : Occurs p t) : Occurs p (norm t) := by
  obtain ⟨a, b, rfl⟩ := h
  unfold norm stripAccents lower nfd
  rw [List.append_assoc]
  obtain ⟨x, hx⟩ := lowerGo_append [] a (p ++ b)
  obtain ⟨r, hr⟩ := lowerGo_fixed hp (a.reverse ++ []) b
  rw [hx, hr]
  have hd : ∀ q : PyStr, (∀ c ∈ q, fixedChar c = true) → q.flatMap decompChar = q := by
    intro q
    induction q with
    | nil => intro _; rfl
    | cons c cs ih =>
      intro hq
      have hc := hq c List.mem_cons_self
      simp only [fixedChar, Bool.and_eq_true, bne_iff_ne, beq_iff_eq] at hc
      rw [List.flatMap_cons, hc.1.1.2, ih (fun x hx => hq x (List.mem_cons_of_mem _ hx))]; rfl
  rw [List.flatMap_append, List.flatMap_append, hd p hp]
  have hccc : ∀ c ∈ p, ccc c = 0 := by
    intro c hc
    have := hp c hc
    simp only [fixedChar, Bool.and_eq_true, bne_iff_ne, beq_iff_eq] at this
    exact this.1.2
  have hmn : p.filter (fun c => !isMn c) = p := by
    rw [List.filter_eq_self]
    intro c hc
    have := hp c hc
    simp only [fixedChar, Bool.and_eq_true] at this
    exact this.2
  obtain ⟨c, cs, rfl⟩ : ∃ c cs, p = c :: cs := by
    cases p with
    | nil => exact absurd rfl hne
    | cons c cs => exact ⟨c, cs, rfl⟩
  obtain ⟨y, hy⟩ := canonicalOrder_before (hccc c List.mem_cons_self) (x.flatMap decompChar) (cs ++ (lowerGo r b).flatMap decompChar)
  rw [List.cons_append, hy, canonicalOrder_fixed (fun x hx => hccc x (List.mem_cons_of_mem _ hx))]
  refine ⟨y.filter (fun c => !isMn c), (canonicalOrder ((lowerGo r b).flatMap decompChar)).filter (fun c => !isMn c), ?_⟩
  rw [← List.cons_append, ← List.append_assoc, List.filter_append, List.filter_append, hmn]

/-! ### Occurrences in texts -/

theorem occurs_cons {p : PyStr} {c : Nat} {cs : PyStr} (h : Occurs p (c :: cs)) : (∃ b, c :: cs = p ++ b) ∨ Occurs p cs := by
  obtain ⟨a, b, h⟩ := h
  cases a with
  | nil => exact Or.inl ⟨b, h⟩
  | cons d ds => simp at h; exact Or.inr ⟨ds, b, by rw [h.2]; simp⟩

theorem prefix_hd {l p b : PyStr} (hp : ∀ c ∈ p, sepChar l c = false) : ∃ b', hd l (p ++ b) = p ++ b' := by
  induction p with
  | nil => exact ⟨_, rfl⟩
  | cons c cs ih =>
    obtain ⟨b', hb'⟩ := ih (fun x hx => hp x (List.mem_cons_of_mem _ hx))
    refine ⟨b', ?_⟩
    rw [List.cons_append, hd_cons, hp c List.mem_cons_self, hb']; rfl

/-- What occurs in a text occurs in a token, unless it is split. -/
theorem occurs_sol {l p s : PyStr} (hne : p ≠ []) (hsp : ∀ c ∈ p, isSpace c = false)
    (hp : (∀ c ∈ p, sepChar l c = false) ∨ ∃ c, p = [c] ∧ sepChar l c = true) (h : Occurs p s) : ∃ t ∈ sol l s, Occurs p t := by
  have hblank : ∀ t, Occurs p t → blank t = false := by
    rintro t ⟨a, b, rfl⟩
    obtain ⟨c, cs, rfl⟩ : ∃ c cs, p = c :: cs := by
      cases p with
      | nil => exact absurd rfl hne
      | cons c cs => exact ⟨c, cs, rfl⟩
    exact not_blank_of_mem (c := c) (by simp) (hsp c List.mem_cons_self)
  induction s with
  | nil =>
    obtain ⟨a, b, h⟩ := h
    have := congrArg List.length h
    simp at this
    exact absurd (List.length_eq_zero_iff.mp (by omega)) hne
  | cons c cs ih =>
    rw [sol_eq, hd_cons, stl_cons]
    rcases occurs_cons h with ⟨b, hb⟩ | h
    · rcases hp with hp | ⟨d, rfl, hd'⟩
      · obtain ⟨b', hb'⟩ := prefix_hd (b := b) hp
        rw [← hb, hd_cons] at hb'
        have ho : Occurs p (if sepChar l c = true then [] else c :: hd l cs) := ⟨[], b', by rw [hb']; simp⟩
        refine ⟨_, ?_, ho⟩
        rw [hblank _ ho]; simp
      · simp at hb
        have hcs : isSpace c = false := by rw [hb.1]; exact hsp d (by simp)
        rw [hcs, hb.1, hd']
        exact ⟨[d], by simp, [], [], by simp⟩
    · obtain ⟨t, ht, ho⟩ := ih h
      cases hs : isSpace c with
      | true => exact ⟨t, by simp [ht], ho⟩
      | false =>
        cases hsep : sepChar l c with
        | true => exact ⟨t, by simp [ht], ho⟩
        | false =>
          rw [sol_eq] at ht
          rcases List.mem_append.mp ht with ht | ht
          · split at ht
            · cases ht
            · simp at ht
              subst ht
              obtain ⟨a, b, e⟩ := ho
              have ho' : Occurs p (c :: hd l cs) := ⟨c :: a, b, by rw [e]; simp⟩
              refine ⟨c :: hd l cs, ?_, ho'⟩
              have := hblank _ ho'
              simp [this]
          · exact ⟨t, by simp [ht], ho⟩

/-- The words that separators start with. -/
def sepWords : List PyStr := [u!"divided", u!"over", u!"by", u!"/"]

/-- `p` occurs in `s`, as a test. -/
def occursB (p : PyStr) : PyStr → Bool
  | [] => p.isEmpty
  | c :: cs => p.isPrefixOf (c :: cs) || occursB p cs

theorem occursB_iff (p s : PyStr) : occursB p s = true ↔ Occurs p s := by
  induction s with
  | nil =>
    simp only [occursB, List.isEmpty_iff]
    constructor
    · rintro rfl; exact ⟨[], [], rfl⟩
    · rintro ⟨a, b, h⟩
      have := congrArg List.length h
      simp at this
      exact List.length_eq_zero_iff.mp (by omega)
  | cons c cs ih =>
    simp only [occursB, Bool.or_eq_true, ih]
    constructor
    · rintro (h | ⟨a, b, h⟩)
      · obtain ⟨b, hb⟩ := List.isPrefixOf_iff_prefix.mp h
        exact ⟨[], b, by rw [List.nil_append, hb]⟩
      · exact ⟨c :: a, b, by rw [h]; rfl⟩
    · intro h
      rcases occurs_cons h with ⟨b, hb⟩ | h
      · exact Or.inl (List.isPrefixOf_iff_prefix.mpr ⟨b, hb.symm⟩)
      · exact Or.inr h

/-- No separator word occurs in a number word or conjunction. -/
def sepFree (ld : LangData) : Bool :=
  ld.allNumbers.all (fun e => sepWords.all (fun p => !occursB p e.1)) && ld.skipTokens.all (fun t => sepWords.all (fun p => !occursB p t))

theorem sf_en : sepFree (mkLangData Data.en) = true := by decide +kernel
theorem sf_es : sepFree (mkLangData Data.es) = true := by decide +kernel
theorem sf_hi : sepFree (mkLangData Data.hi) = true := by decide +kernel
theorem sf_ru : sepFree (mkLangData Data.ru) = true := by decide +kernel
theorem sf_uk : sepFree (mkLangData Data.uk) = true := by decide +kernel

theorem sepFree_all {l : PyStr} {ld : LangData} (h : languageData l = .ok ld) : sepFree ld = true := by
  rcases (languageData_ok_iff l ld).mp h with ⟨_, rfl⟩ | ⟨_, rfl⟩ | ⟨_, rfl⟩ | ⟨_, rfl⟩ | ⟨_, rfl⟩
  · exact sf_en
  · exact sf_es
  · exact sf_hi
  · exact sf_ru
  · exact sf_uk

theorem numOrSkip_sepFree {l : PyStr} {ld : LangData} (h : languageData l = .ok ld) {t p : PyStr} (ht : numOrSkip ld t = true)
    (hp : p ∈ sepWords) : ¬ Occurs p t := by
  have hn := sepFree_all h
  unfold sepFree at hn
  rw [Bool.and_eq_true] at hn
  unfold numOrSkip at ht
  rw [Bool.or_eq_true] at ht
  have key : sepWords.all (fun p => !occursB p t) = true := by
    rcases ht with ht | ht
    · exact dictAllKey_sound (p := fun t => sepWords.all (fun p => !occursB p t)) hn.1 ht
    · exact List.all_eq_true.mp hn.2 t (List.elem_iff.mp ht)
  have := List.all_eq_true.mp key p hp
  rw [← occursB_iff]
  simpa using this

theorem sepWords_facts : ∀ p ∈ sepWords, p ≠ [] ∧ (∀ c ∈ p, isSpace c = false) ∧ (∀ c ∈ p, fixedChar c = true) := by
  decide +kernel

theorem sepWords_split (l : PyStr) : ∀ p ∈ sepWords, (∀ c ∈ p, sepChar l c = false) ∨ ∃ c, p = [c] ∧ sepChar l c = true := by
  intro p hp
  have hw : ∀ q : PyStr, q.all isWord = true → ∀ c ∈ q, sepChar l c = false := by
    intro q hq c hc
    have := List.all_eq_true.mp hq c hc
    unfold sepChar
    split
    · exact word_not_space this
    · rw [this]; rfl
  simp only [sepWords, List.mem_cons, List.not_mem_nil, or_false] at hp
  rcases hp with rfl | rfl | rfl | rfl
  · exact Or.inl (hw _ (by decide +kernel))
  · exact Or.inl (hw _ (by decide +kernel))
  · exact Or.inl (hw _ (by decide +kernel))
  · cases h : sepChar l 0x2f with
    | true => exact Or.inr ⟨0x2f, rfl, h⟩
    | false => left; intro c hc; simp at hc; rw [hc]; exact h

/-- No separator word occurs in a fragment of number words and conjunctions. -/
theorem Frag.sepFree {l : PyStr} {ld : LangData} (h : languageData l = .ok ld) {s : PyStr} {ks : List Kind} (hf : Frag l ld s ks)
    {p : PyStr} (hp : p ∈ sepWords) : ¬ Occurs p s := by
  intro ho
  obtain ⟨h1, h2, h3⟩ := sepWords_facts p hp
  obtain ⟨t, ht, ho⟩ := occurs_sol (l := l) h1 h2 (sepWords_split l p hp) ho
  exact numOrSkip_sepFree h (hf.ok _ (List.mem_map.mpr ⟨t, ht, rfl⟩)) hp (norm_occurs h1 h3 ho)

/-- An occurrence in `x ++ " " ++ y` of something without a space is in `x` or in `y`. -/
theorem occurrence_cases {p x y a b : PyStr} (hp : 32 ∉ p) (hne : p ≠ []) (h : x ++ 32 :: y = a ++ p ++ b) :
    (∃ b', x = a ++ p ++ b') ∨ (x.length < a.length ∧ Occurs p y) := by
  rw [List.append_assoc] at h
  rcases List.append_eq_append_iff.mp h with ⟨c, h1, h2⟩ | ⟨c, h1, h2⟩
  · -- a = x ++ c
    cases c with
    | nil =>
      cases p with
      | nil => exact absurd rfl hne
      | cons d ds => simp at h2; exact absurd (by rw [h2.1]; simp) hp
    | cons d ds =>
      simp at h2
      refine Or.inr ⟨by rw [h1]; simp, ds, b, by rw [h2.2]; simp⟩
  · -- x = a ++ c
    rcases List.append_eq_append_iff.mp h2 with ⟨e, h3, h4⟩ | ⟨e, h3, h4⟩
    · exact Or.inl ⟨e, by rw [h1, h3]; simp⟩
    · cases e with
      | nil => exact Or.inl ⟨[], by rw [h1, h3]; simp⟩
      | cons d ds =>
        simp at h4
        exact absurd (by rw [h3, ← h4.1]; simp) hp

/-- The first word of each separator. -/
theorem separators_words : ∀ sep ∈ separators, ∃ p ∈ sepWords, ∃ r, sep = p ++ r ∧ 32 ∉ p := by
  intro sep hsep
  simp only [separators, List.mem_cons, List.not_mem_nil, or_false] at hsep
  rcases hsep with rfl | rfl | rfl | rfl
  · exact ⟨u!"divided", by decide, u!" by", rfl, by decide⟩
  · exact ⟨u!"over", by decide, [], rfl, by decide⟩
  · exact ⟨u!"by", by decide, [], rfl, by decide⟩
  · exact ⟨u!"/", by decide, [], rfl, by decide⟩

theorem occurs_prefix {p r s : PyStr} (h : Occurs (p ++ r) s) : Occurs p s := by
  obtain ⟨a, b, rfl⟩ := h
  exact ⟨a, r ++ b, by simp⟩

/-- The parts of a text made of two sides free of separator words and a separator between them. -/
theorem fractionParts_of_free {A B sep : PyStr} (hA : ∀ p ∈ sepWords, ¬ Occurs p A) (hB : ∀ p ∈ sepWords, ¬ Occurs p B)
    (hsep : sep ∈ separators) : FractionParts (A ++ u!" " ++ sep ++ u!" " ++ B) (A ++ u!" ") (u!" " ++ B) := by
  have e : ∀ x : PyStr, A ++ u!" " ++ x ++ u!" " ++ B = A ++ 32 :: (x ++ 32 :: B) := by intro x; simp
  -- a higher separator does not occur
  have hi : ∀ x ∈ separators, ∀ sep, (∀ p, p ∈ sepWords → (∃ r, x = p ++ r) → 32 ∉ p → ¬ Occurs p sep) → ¬ Occurs x (A ++ u!" " ++ sep ++ u!" " ++ B) := by
    intro x hx sep hs ho
    obtain ⟨p, hp, r, rfl, h32⟩ := separators_words x hx
    have hne := (sepWords_facts p hp).1
    obtain ⟨a, b, ho⟩ := occurs_prefix ho
    rw [e] at ho
    rcases occurrence_cases h32 hne ho with ⟨b', h⟩ | ⟨_, a', b', h⟩
    · exact hA p hp ⟨a, b', h⟩
    · rcases occurrence_cases h32 hne h with ⟨b'', h⟩ | ⟨_, h⟩
      · exact hs p hp ⟨r, rfl⟩ h32 ⟨a', b'', h⟩
      · exact hB p hp h
  -- the separator occurs first after A
  have first : SplitAt sep (A ++ u!" " ++ sep ++ u!" " ++ B) (A ++ u!" ") (u!" " ++ B) := by
    refine ⟨by simp, ?_⟩
    intro a b ho
    obtain ⟨p, hp, r, rfl, h32⟩ := separators_words sep hsep
    have hne := (sepWords_facts p hp).1
    rw [e] at ho
    have ho' : A ++ 32 :: (p ++ r ++ 32 :: B) = a ++ p ++ (r ++ b) := by rw [ho]; simp
    rcases occurrence_cases h32 hne ho' with ⟨b', h⟩ | ⟨h, _⟩
    · exact absurd ⟨a, b', h⟩ (hA p hp)
    · simp; omega
  have noB : ∀ (x sep : PyStr), x ∈ separators → (∀ p ∈ sepWords, p.isPrefixOf x = true → 32 ∉ p → ¬ Occurs p sep) →
      ¬ Occurs x (A ++ u!" " ++ sep ++ u!" " ++ B) := by
    intro x sep hx h
    apply hi x hx sep
    rintro p hp ⟨r, rfl⟩ h32
    exact h p hp (List.isPrefixOf_iff_prefix.mpr ⟨r, rfl⟩) h32
  have dec : ∀ (x sep : PyStr), x ∈ separators → sepWords.all (fun p => !p.isPrefixOf x || p.elem 32 || !occursB p sep) = true →
      ¬ Occurs x (A ++ u!" " ++ sep ++ u!" " ++ B) := by
    intro x sep hx h
    apply noB x sep hx
    intro p hp h1 h2 h3
    have := List.all_eq_true.mp h p hp
    rw [h1, (occursB_iff p sep).mpr h3] at this
    simp at this
    exact h2 this
  simp only [separators, List.mem_cons, List.not_mem_nil, or_false] at hsep
  rcases hsep with rfl | rfl | rfl | rfl
  · exact ⟨[], _, _, rfl, by simp, first⟩
  · refine ⟨[u!"divided by"], _, _, rfl, ?_, first⟩
    intro x hx
    exact dec x _ (by simp at hx; rw [hx]; decide) (by simp at hx; rw [hx]; decide)
  · refine ⟨[u!"divided by", u!"over"], _, _, rfl, ?_, first⟩
    intro x hx
    simp only [List.mem_cons, List.not_mem_nil, or_false] at hx
    rcases hx with rfl | rfl
    · exact dec _ _ (by decide) (by decide)
    · exact dec _ _ (by decide) (by decide)
  · refine ⟨[u!"divided by", u!"over", u!"by"], _, _, rfl, ?_, first⟩
    intro x hx
    simp only [List.mem_cons, List.not_mem_nil, or_false] at hx
    rcases hx with rfl | rfl | rfl
    · exact dec _ _ (by decide) (by decide)
    · exact dec _ _ (by decide) (by decide)
    · exact dec _ _ (by decide) (by decide)

/-- A rendering with white space before and after is a rendering. -/
theorem rendering_space_before {σ : Style} {ws : List PyStr} {t g : PyStr} (h : Rendering σ ws t) (hg : ∀ c ∈ g, isSpace c = true) :
    Rendering σ ws (g ++ t) := by
  obtain ⟨lead, rest, h1, h2, rfl⟩ := h
  refine ⟨g ++ lead, rest, ?_, h2, by simp⟩
  intro c hc
  rcases List.mem_append.mp hc with hc | hc
  · exact hg c hc
  · exact h1 c hc

theorem text_space_after {σ : Style} {ws : List PyStr} {t g : PyStr} (h : Text σ ws t) (hg : ∀ c ∈ g, isSpace c = true) :
    Text σ ws (t ++ g) := by
  induction h with
  | @last w v trail hw ht =>
    rw [List.append_assoc]
    refine Text.last hw ?_
    intro c hc
    rcases List.mem_append.mp hc with hc | hc
    · exact ht c hc
    · exact hg c hc
  | cons hw hgap _ ih => rw [List.append_assoc]; exact Text.cons hw hgap ih

theorem rendering_space_after {σ : Style} {ws : List PyStr} {t g : PyStr} (h : Rendering σ ws t) (hg : ∀ c ∈ g, isSpace c = true) :
    Rendering σ ws (t ++ g) := by
  obtain ⟨lead, rest, h1, h2, rfl⟩ := h
  exact ⟨lead, rest ++ g, h1, text_space_after h2 hg, by simp⟩

end NumberParser
