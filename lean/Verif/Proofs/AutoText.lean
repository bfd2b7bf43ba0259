import Verif.Proofs.Auto
import Verif.Proofs.Transport
import Verif.Proofs.Convert
import Verif.Spec.Recognised

/-! The language detected for a text in which no other language recognises more than the given one (C72). -/

set_option linter.unusedSimpArgs false

namespace NumberParser
open Spec

set_option maxRecDepth 100000

/-! ### Tokens recognised in two languages -/

/-- The three forms of a number word, after the irregular ordinals have been replaced. -/
def Hit (l g : PyStr) (k : Class) (v : Nat) (c : PyStr) : Prop :=
  FormOf l k v c ∧ (g = c ∨ g = c ++ u!"th" ∨ ∃ stem, c = stem ++ u!"y" ∧ g = stem ++ u!"ieth")

theorem numberWord_hit {l t : PyStr} : NumberWord l t ↔ ∃ k v c, Hit l (irregular (form t)) k v c := Iff.rfl

theorem skip_irregular_check : supported.all (fun l => (file l).skipTokens.all (fun f => irregular f == f)) = true := by decide +kernel

theorem skip_irregular {l t : PyStr} (hl : l ∈ supported) (h : Skip l t) : irregular (form t) = form t := by
  have := List.all_eq_true.mp (List.all_eq_true.mp skip_irregular_check l hl) _ h
  simpa using this

/-- Only words in the Latin script have a y. -/
theorem formOf_script {l f : PyStr} {k : Class} {v : Nat} (hl : l ∈ supported) (h : FormOf l k v f) : inScript (langScript l) f = true := by
  apply numOrSkip_script (supported_data hl)
  unfold numOrSkip
  rw [(allNumbers_iff hl f).mpr ⟨k, v, h⟩]; rfl

theorem scriptOf_th : ∀ x ∈ u!"th", scriptOf x = 0 := by decide
theorem scriptOf_ieth : ∀ x ∈ u!"ieth", scriptOf x = 0 := by decide

/-- The characters of a recognised token: some in the script of the language, and otherwise at most Latin ones and ones of no script. -/
theorem recognised_script {l t : PyStr} (hl : l ∈ supported) (h : Recognised l t) :
    (∀ x ∈ irregular (form t), scriptOf x = langScript l ∨ scriptOf x = 0 ∨ scriptOf x = 3) ∧
    ∃ x ∈ irregular (form t), scriptOf x = langScript l := by
  rcases h with h | h
  · obtain ⟨k, v, c, hf, hc⟩ := h
    have hs := formOf_script hl hf
    unfold inScript at hs
    rw [Bool.and_eq_true, List.any_eq_true, List.all_eq_true] at hs
    obtain ⟨⟨x, hx, hxs⟩, hall⟩ := hs
    simp only [beq_iff_eq] at hxs
    have hall' : ∀ x ∈ c, scriptOf x = langScript l ∨ scriptOf x = 3 := by
      intro x hx; simpa using hall x hx
    rcases hc with e | e | ⟨stem, e1, e⟩
    · rw [e]
      exact ⟨fun x hx => by have := hall' x hx; omega, x, hx, hxs⟩
    · rw [e]
      refine ⟨?_, x, List.mem_append_left _ hx, hxs⟩
      intro x hx
      rcases List.mem_append.mp hx with hx | hx
      · rcases hall' x hx with h | h
        · exact Or.inl h
        · exact Or.inr (Or.inr h)
      · exact Or.inr (Or.inl (scriptOf_th x hx))
    · have hy : langScript l = 0 := by
        rcases hall' 0x79 (by rw [e1]; simp) with h | h
        · rw [← h]; decide
        · exact absurd h (by decide)
      rw [e]
      refine ⟨?_, 0x68, by simp, by rw [hy]; decide⟩
      intro x hx
      rcases List.mem_append.mp hx with hx | hx
      · rcases hall' x (by rw [e1]; exact List.mem_append_left _ hx) with h | h
        · exact Or.inl h
        · exact Or.inr (Or.inr h)
      · exact Or.inr (Or.inl (scriptOf_ieth x hx))
  · rw [skip_irregular hl h]
    have hs := numOrSkip_script (supported_data hl) (t := form t) (by
      unfold numOrSkip
      rw [show isSkipToken (form t) (mkLangData (file l)) = true from (skip_iff l t).mp h]; simp)
    unfold inScript at hs
    rw [Bool.and_eq_true, List.any_eq_true, List.all_eq_true] at hs
    obtain ⟨⟨x, hx, hxs⟩, hall⟩ := hs
    simp only [beq_iff_eq] at hxs
    exact ⟨fun x hx => by have := hall x hx; simp only [Bool.or_eq_true, beq_iff_eq] at this; omega, x, hx, hxs⟩

/-- No token is recognised in languages of different scripts. -/
theorem recognised_scripts {l l' t : PyStr} (hl : l ∈ supported) (hl' : l' ∈ supported) (h : Recognised l t) (h' : Recognised l' t) :
    langScript l = langScript l' := by
  obtain ⟨h1, x, hx, hxs⟩ := recognised_script hl h
  obtain ⟨h1', x', hx', hxs'⟩ := recognised_script hl' h'
  have a := h1 x' hx'
  have b := h1' x hx
  have := langScript_lt l
  have := langScript_lt l'
  omega

/-! ### English and Spanish -/

/-- Whether `g` is one of the three forms of a word of the table. -/
def hitB (ld : LangData) (g : PyStr) : Bool :=
  ld.allNumbers.mem g || (u!"th".isSuffixOf g && ld.allNumbers.mem (g.take (g.length - 2))) ||
    (u!"ieth".isSuffixOf g && ld.allNumbers.mem (g.take (g.length - 4) ++ u!"y"))

theorem hitB_of {l g c : PyStr} {k : Class} {v : Nat} (hl : l ∈ supported) (h : Hit l g k v c) : hitB (mkLangData (file l)) g = true := by
  have hm := (allNumbers_iff hl c).mpr ⟨k, v, h.1⟩
  unfold hitB
  generalize mkLangData (file l) = ld at *
  have hend : ∀ s suf : PyStr, suf.isSuffixOf (s ++ suf) = true := by
    intro s suf
    rw [List.isSuffixOf_iff_suffix]; exact List.suffix_append s suf
  rcases h.2 with e | e | ⟨stem, e1, e⟩
  · rw [e, hm]; rfl
  · rw [e, hend, show (c ++ u!"th").take ((c ++ u!"th").length - 2) = c by simp, hm]; simp
  · rw [e, hend, show (stem ++ u!"ieth").take ((stem ++ u!"ieth").length - 4) = stem by simp, ← e1, hm]; simp

/-- The forms of a cardinal word. -/
def formsB (c : PyStr) : List PyStr :=
  c :: (c ++ u!"th") :: (if u!"y".isSuffixOf c then [c.take (c.length - 1) ++ u!"ieth"] else [])

theorem hit_forms {l g c : PyStr} {k : Class} {v : Nat} (h : Hit l g k v c) : g ∈ formsB c := by
  unfold formsB
  rcases h.2 with e | e | ⟨stem, e1, e⟩
  · rw [e]; simp
  · rw [e]; simp
  · have h1 : u!"y".isSuffixOf c = true := by rw [e1, List.isSuffixOf_iff_suffix]; exact List.suffix_append _ _
    rw [h1, e1, e]; simp

/-- No token is a number word or conjunction in both. -/
def apartCheck (a b : LangData) : Bool :=
  a.allNumbers.all (fun e => (formsB e.1).all (fun g => !hitB b g && !b.skipTokens.elem g)) &&
  a.skipTokens.all (fun f => !hitB b f && !b.skipTokens.elem f)

theorem apart_es_en : apartCheck (mkLangData Data.es) (mkLangData Data.en) = true := by decide +kernel

theorem recognised_hit {l t : PyStr} (hl : l ∈ supported) (h : Recognised l t) :
    (∃ k v c, Hit l (irregular (form t)) k v c) ∨ irregular (form t) ∈ (file l).skipTokens := by
  rcases h with h | h
  · exact Or.inl h
  · right; rw [skip_irregular hl h]; exact h

theorem apart {a b t : PyStr} (ha : a ∈ supported) (hb : b ∈ supported) (h : apartCheck (mkLangData (file a)) (mkLangData (file b)) = true) :
    ¬ (Recognised a t ∧ Recognised b t) := by
  rintro ⟨h1, h2⟩
  have h1 := recognised_hit ha h1
  have h2 := recognised_hit hb h2
  generalize irregular (form t) = g at *
  have hb' : (hitB (mkLangData (file b)) g || (mkLangData (file b)).skipTokens.elem g) = true := by
    rcases h2 with ⟨k, v, c, h2⟩ | h2
    · rw [hitB_of hb h2]; rfl
    · rw [Bool.or_eq_true]; exact Or.inr (List.elem_iff.mpr h2)
  have h1' : (∃ c, (mkLangData (file a)).allNumbers.mem c = true ∧ g ∈ formsB c) ∨ g ∈ (mkLangData (file a)).skipTokens := by
    rcases h1 with ⟨k, v, c, h1⟩ | h1
    · exact Or.inl ⟨c, (allNumbers_iff ha c).mpr ⟨k, v, h1.1⟩, hit_forms h1⟩
    · exact Or.inr h1
  clear h1 h2
  generalize mkLangData (file a) = A at *
  generalize mkLangData (file b) = B at *
  unfold apartCheck at h
  rw [Bool.and_eq_true] at h
  have key : (!hitB B g && !B.skipTokens.elem g) = true := by
    rcases h1' with ⟨c, hc, hg⟩ | hg
    · have := dictAllKey_sound (p := fun c => (formsB c).all (fun g => !hitB B g && !B.skipTokens.elem g)) h.1 hc
      exact List.all_eq_true.mp this g hg
    · exact List.all_eq_true.mp h.2 g hg
  revert hb' key
  cases hitB B g <;> cases B.skipTokens.elem g <;> simp

/-! ### Russian and Ukrainian -/

def cyrillic : List PyStr := [u!"ru", u!"uk"]

theorem cyrillic_facts : ∀ a ∈ cyrillic, a ∈ supported ∧ langScript a = 1 ∧ (file a).skipTokens = [] := by decide

/-- Words in both tables have the same meaning. -/
theorem cyrillic_kind {a b c : PyStr} (ha : a ∈ cyrillic) (hb : b ∈ cyrillic) (h1 : (mkLangData (file a)).allNumbers.mem c = true)
    (h2 : (mkLangData (file b)).allNumbers.mem c = true) : kindOf (mkLangData (file a)) c = kindOf (mkLangData (file b)) c := by
  have key : ∀ c, (mkLangData Data.uk).allNumbers.mem c = true → (mkLangData Data.ru).allNumbers.mem c = true →
      kindOf (mkLangData Data.ru) c = kindOf (mkLangData Data.uk) c := by
    intro c hu hr
    refine (shared_words hu ?_).2
    rw [number_of_mem wf_ru hr]; rfl
  simp only [cyrillic, List.mem_cons, List.not_mem_nil, or_false] at ha hb
  rcases ha with rfl | rfl <;> rcases hb with rfl | rfl
  · rfl
  · exact key c h2 h1
  · exact (key c h1 h2).symm
  · rfl

theorem cyrillic_chars {a c : PyStr} {k : Class} {v : Nat} (ha : a ∈ cyrillic) (h : FormOf a k v c) : ∀ x ∈ c, scriptOf x ≠ 0 := by
  obtain ⟨h1, h2, _⟩ := cyrillic_facts a ha
  have hs := formOf_script h1 h
  rw [h2] at hs
  unfold inScript at hs
  rw [Bool.and_eq_true, List.all_eq_true] at hs
  intro x hx
  have := hs.2 x hx
  simp only [Bool.or_eq_true, beq_iff_eq] at this
  omega

/-- A form of a word in both languages is of the same word. -/
theorem cyrillic_hit {a b g c c' : PyStr} {k k' : Class} {v v' : Nat} (ha : a ∈ cyrillic) (hb : b ∈ cyrillic)
    (h1 : Hit a g k v c) (h2 : Hit b g k' v' c') : c = c' := by
  have x1 := cyrillic_chars ha h1.1
  have x2 := cyrillic_chars hb h2.1
  rcases h1.2 with e | e | ⟨stem, e1, e⟩
  · rcases h2.2 with e' | e' | ⟨stem', e1', e'⟩
    · rw [← e, e']
    · exact absurd (by decide) (x1 0x74 (by rw [← e, e']; simp))
    · exact absurd (by decide) (x2 0x79 (by rw [e1']; simp))
  · rcases h2.2 with e' | e' | ⟨stem', e1', e'⟩
    · exact absurd (by decide) (x2 0x74 (by rw [← e', e]; simp))
    · rw [e] at e'; exact List.append_cancel_right e'
    · exact absurd (by decide) (x2 0x79 (by rw [e1']; simp))
  · exact absurd (by decide) (x1 0x79 (by rw [e1]; simp))

theorem same_form {a b g c : PyStr} {k : Class} {v : Nat} (ha : a ∈ cyrillic) (hb : b ∈ cyrillic) (h1 : Hit a g k v c)
    (h2 : ∃ k v c, Hit b g k v c) : FormOf b k v c := by
  obtain ⟨k', v', c', h2⟩ := h2
  obtain rfl := cyrillic_hit ha hb h1 h2
  have hsa := (cyrillic_facts a ha).1
  have hsb := (cyrillic_facts b hb).1
  have e := cyrillic_kind ha hb ((allNumbers_iff hsa c).mpr ⟨k, v, h1.1⟩) ((allNumbers_iff hsb c).mpr ⟨k', v', h2.1⟩)
  rw [kindOf_word hsa h1.1, kindOf_word hsb h2.1] at e
  have : k' = k ∧ v' = v := by cases k <;> cases k' <;> simp at e ⊢ <;> exact e.symm
  obtain ⟨rfl, rfl⟩ := this
  exact h2.1

/-- What is the same for two languages that agree on a token. -/
structure Agree (a b t : PyStr) : Prop where
  word : ∀ k v, Word a k v t → Word b k v t
  ordinal : ∀ k v, OrdinalWord a k v t → OrdinalWord b k v t
  skip : Skip a t → Skip b t
  ordinary : Ordinary a t → Ordinary b t

theorem irregular_noletters {f : PyStr} (h : ∀ x ∈ f, scriptOf x ≠ 0) : irregular f = f := by
  have ha : ∀ p, isAz p = true → p ∉ f := fun p hp hm => h p hm (by unfold scriptOf; rw [hp]; rfl)
  unfold irregular
  simp only [irregulars, List.foldl_cons, List.foldl_nil, replace]
  rw [replaceGo_absent _ _ _ _ (ha _ (by decide)), replaceGo_absent _ _ _ _ (ha _ (by decide)),
    replaceGo_absent _ _ _ _ (ha _ (by decide)), replaceGo_absent _ _ _ _ (ha _ (by decide)),
    replaceGo_absent _ _ _ _ (ha _ (by decide)), replaceGo_absent _ _ _ _ (ha _ (by decide)),
    replaceGo_absent _ _ _ _ (ha _ (by decide))]

theorem agree_of {a b t : PyStr} (ha : a ∈ cyrillic) (hb : b ∈ cyrillic) (hr : Recognised a t ↔ Recognised b t) : Agree a b t := by
  have nsk : ∀ a ∈ cyrillic, ¬ Skip a t := by intro a ha; unfold Skip; rw [(cyrillic_facts a ha).2.2]; simp
  have hn : NumberWord a t ↔ NumberWord b t := by
    constructor
    · intro h; exact (hr.mp (Or.inl h)).resolve_right (nsk b hb)
    · intro h; exact (hr.mpr (Or.inl h)).resolve_right (nsk a ha)
  have hw : ∀ {a b : PyStr}, a ∈ cyrillic → b ∈ cyrillic → (NumberWord a t → NumberWord b t) → ∀ k v, Word a k v t → Word b k v t := by
    intro a b ha hb hn k v hw
    have e := irregular_noletters (cyrillic_chars ha hw)
    have : NumberWord a t := ⟨k, v, form t, hw, Or.inl e⟩
    exact same_form ha hb ⟨hw, Or.inl e⟩ (hn this)
  refine ⟨hw ha hb hn.mp, ?_, fun h => absurd h (nsk a ha), fun ho => ⟨ho.1, fun h => ho.2.1 (hn.mpr h), nsk b hb⟩⟩
  rintro k v ⟨h1, c, h2, h3⟩
  refine ⟨?_, c, same_form ha hb ⟨h2, h3⟩ (hn.mp ⟨k, v, c, h2, h3⟩), h3⟩
  rintro ⟨k', v', hw'⟩
  exact h1 ⟨k', v', hw hb ha hn.mpr k' v' hw'⟩

/-! ### The conversion depends on what is recognised only -/

theorem readsAs_agree {a b : PyStr} (hg : groupLimit a = groupLimit b) {ws : List (Class × Nat)} {n : Nat} : ReadsAs a ws n ↔ ReadsAs b ws n := by
  unfold ReadsAs; rw [hg]

theorem cut_agree {a b : PyStr} (hg : groupLimit a = groupLimit b) {is : List RunItem} {xs : List PyStr} (h : Cut a is xs) : Cut b is xs := by
  induction h with
  | last h => exact .last ((readsAs_agree hg).mp h)
  | more h1 h2 h3 _ ih => exact .more ((readsAs_agree hg).mp h1) h2 (fun m h => h3 m ((readsAs_agree hg).mpr h)) ih

theorem runTokens_agree {a b : PyStr} {ts : List PyStr} {is : List RunItem} (h : RunTokens a ts is) (hag : ∀ t ∈ ts, Agree a b t) :
    RunTokens b ts is := by
  induction h with
  | nil => exact .nil
  | word hw _ ih => exact .word ((hag _ (by simp)).word _ _ hw) (ih (fun t ht => hag t (by simp [ht])))
  | conj hs _ ih => exact .conj ((hag _ (by simp)).skip hs) (ih (fun t ht => hag t (by simp [ht])))
  | blank hb _ ih => exact .blank hb (ih (fun t ht => hag t (by simp [ht])))

theorem run_agree {a b : PyStr} {ts : List PyStr} {is : List RunItem} (h : Run a ts is) (hag : ∀ t ∈ ts, Agree a b t) : Run b ts is := by
  obtain ⟨h1, t, ts', rfl, k, v, hw⟩ := h
  exact ⟨runTokens_agree h1 hag, t, ts', rfl, k, v, (hag t (by simp)).word k v hw⟩

theorem converted_agree {a b : PyStr} (hg : groupLimit a = groupLimit b) {ts : List PyStr} {out : PyStr} (h : Converted a ts out)
    (hag : ∀ t ∈ ts, Agree a b t) : Converted b ts out := by
  induction h with
  | nil => exact .nil
  | keep hk _ ih =>
    refine .keep ?_ (ih (fun t ht => hag t (by simp [ht])))
    rcases hk with h | h | h | h
    · exact Or.inl h
    · exact Or.inr (Or.inl h)
    · exact Or.inr (Or.inr (Or.inl ((hag _ (by simp)).skip h)))
    · exact Or.inr (Or.inr (Or.inr ((hag _ (by simp)).ordinary h)))
  | ending hrun hcut => exact .ending (run_agree hrun hag) (cut_agree hg hcut)
  | mark hrun hcut hm he _ ih =>
    exact .mark (run_agree hrun (fun t ht => hag t (by simp [ht]))) (cut_agree hg hcut) hm he (ih (fun t ht => hag t (by simp [ht])))
  | markTight hrun hcut hm he _ ih =>
    exact .markTight (run_agree hrun (fun t ht => hag t (by simp [ht]))) (cut_agree hg hcut) hm he (ih (fun t ht => hag t (by simp [ht])))
  | word hrun hl hcut ho hm _ ih =>
    exact .word (run_agree hrun (fun t ht => hag t (by simp [ht]))) hl (cut_agree hg hcut) ((hag _ (by simp)).ordinary ho) hm
      (ih (fun t ht => hag t (by simp [ht])))
  | conjWord hrun hcut ho hm _ ih =>
    exact .conjWord (run_agree hrun (fun t ht => hag t (by simp [ht]))) (cut_agree hg hcut) ((hag _ (by simp)).ordinary ho) hm
      (ih (fun t ht => hag t (by simp [ht])))
  | ordinal hrun ho hcut _ ih =>
    refine .ordinal ?_ ((hag _ (by simp)).ordinal _ _ ho) (cut_agree hg hcut) (ih (fun t ht => hag t (by simp [ht])))
    rcases hrun with h | h
    · exact Or.inl h
    · exact Or.inr (run_agree h (fun t ht => hag t (by simp [ht])))

theorem onlyWords_agree {a b : PyStr} {ts : List PyStr} {ws : List (Class × Nat)} (h : OnlyWords a ts ws) (hag : ∀ t ∈ ts, Agree a b t) :
    OnlyWords b ts ws := by
  induction h with
  | nil => exact .nil
  | word hw _ ih => exact .word ((hag _ (by simp)).word _ _ hw) (ih (fun t ht => hag t (by simp [ht])))
  | other ho _ ih =>
    refine .other ?_ (ih (fun t ht => hag t (by simp [ht])))
    rcases ho with h | h
    · exact Or.inl h
    · exact Or.inr ((hag _ (by simp)).skip h)

/-! ### Which language is detected -/

open Classical in
theorem score_tokens {l : PyStr} (hl : l ∈ supported) (s : PyStr) : score s l = ((tokenize s l).filter (fun t => Recognised l t)).length := by
  have := (score_iff hl s (score s l)).mpr rfl
  obtain ⟨ts, ht, e⟩ := this
  rw [tokens_iff] at ht
  subst ht
  rw [← e]
  congr 1
  apply List.filter_congr
  intro t _
  rw [Bool.eq_iff_iff]
  simp only [decide_eq_true_eq]
  exact Iff.rfl

theorem tokenize_same {a b : PyStr} (h : RE_BUG_LANGUAGES.elem a = RE_BUG_LANGUAGES.elem b) (s : PyStr) : tokenize s a = tokenize s b := by
  rw [tokenize_eq, tokenize_eq]; unfold split; rw [h]

theorem filter_sub_length {α : Type} (p q : α → Bool) (ls : List α) (h : ∀ x ∈ ls, p x = true → q x = true) :
    (ls.filter p).length ≤ (ls.filter q).length ∧ ((ls.filter q).length ≤ (ls.filter p).length → ∀ x ∈ ls, q x = true → p x = true) := by
  induction ls with
  | nil => simp
  | cons a ls ih =>
    obtain ⟨h1, h2⟩ := ih (fun x hx => h x (by simp [hx]))
    have ha := h a (by simp)
    simp only [List.filter_cons]
    cases hp : p a <;> cases hq : q a <;> simp [hp, hq] at ha ⊢
    · exact ⟨h1, h2⟩
    · exact ⟨by omega, by omega⟩
    · exact ⟨h1, h2⟩

theorem supportedNodup : supported.Nodup := by decide

theorem supportedSplit {l : PyStr} {a b a' b' : List PyStr} (h : supported = a ++ l :: b) (h' : supported = a' ++ l :: b') : a = a' ∧ b = b' := by
  have hn := supportedNodup
  rw [h] at h' hn
  rcases List.append_eq_append_iff.mp h' with ⟨c, h1, h2⟩ | ⟨c, h1, h2⟩
  · cases c with
    | nil => simp at h1 h2; exact ⟨h1.symm, h2⟩
    | cons d c =>
      simp at h2
      obtain ⟨rfl, h3⟩ := h2
      rw [h3] at hn
      have := (List.nodup_append.mp hn).2.1
      simp at this
  · cases c with
    | nil => simp at h1 h2; exact ⟨h1, h2.symm⟩
    | cons d c =>
      simp at h2
      obtain ⟨rfl, h3⟩ := h2
      rw [h1] at hn
      have := (List.nodup_append.mp hn).2.2 l (by simp) l (by simp)
      exact absurd rfl this

theorem script_tokens : ∀ a ∈ supported, ∀ b ∈ supported, langScript a = langScript b → RE_BUG_LANGUAGES.elem a = RE_BUG_LANGUAGES.elem b := by
  decide

open Classical in
/-- If no language recognises a token that `l` does not recognise, then `l` is detected; or Russian for Ukrainian, and then both recognise
the same tokens; or nothing is recognised at all. -/
theorem detected_clean {l s : PyStr} (hl : l ∈ supported)
    (h : ∀ l' ∈ supported, ∀ t ∈ tokenize s l', Recognised l' t → Recognised l t) {d : PyStr} (hd : Detected s d) :
    d = l ∨ (l = u!"uk" ∧ d = u!"ru" ∧ ∀ t ∈ tokenize s l, Recognised d t ↔ Recognised l t) ∨
      ∀ l' ∈ supported, ∀ t ∈ tokenize s l', ¬ Recognised l' t := by
  have hds := Detected.mem hd
  -- languages of another script recognise nothing
  have hfor : ∀ l' ∈ supported, langScript l' ≠ langScript l → ∀ t ∈ tokenize s l', ¬ Recognised l' t := by
    intro l' hl' hne t ht hr
    exact hne (recognised_scripts hl' hl hr (h l' hl' t ht hr))
  have hle : ∀ l' ∈ supported, score s l' ≤ score s l := by
    intro l' hl'
    by_cases hs : langScript l' = langScript l
    · rw [score_tokens hl', score_tokens hl, tokenize_same (script_tokens l' hl' l hl hs)]
      rw [← tokenize_same (script_tokens l' hl' l hl hs)]
      refine (filter_sub_length _ _ _ ?_).1
      intro t ht hr
      simp only [decide_eq_true_eq] at hr ⊢
      exact h l' hl' t ht hr
    · rw [score_tokens hl', List.filter_eq_nil_iff.mpr]
      · exact Nat.zero_le _
      · intro t ht; simpa using hfor l' hl' hs t ht
  obtain ⟨x, y, hs, k, hk, h1, h2⟩ := hd
  rw [score_iff hds] at hk
  have hge : score s l ≤ score s d := by
    have hm : l ∈ x ++ d :: y := by rw [← hs]; exact hl
    rcases List.mem_append.mp hm with hm | hm
    · obtain ⟨k', h3, h4⟩ := h1 l hm
      rw [score_iff hl] at h3; omega
    · rcases List.mem_cons.mp hm with rfl | hm
      · exact Nat.le_refl _
      · obtain ⟨k', h3, h4⟩ := h2 l hm
        rw [score_iff hl] at h3; omega
  by_cases hz : score s l = 0
  · right; right
    intro l' hl' t ht hr
    have := hle l' hl'
    rw [hz, score_tokens hl'] at this
    have := List.length_eq_zero_iff.mp (Nat.le_zero.mp this)
    rw [List.filter_eq_nil_iff] at this
    exact this t ht (by simpa using hr)
  · -- the same script, and the same tokens are recognised
    have hsc : langScript d = langScript l := by
      apply Classical.byContradiction
      intro hne
      have : score s d = 0 := by
        rw [score_tokens hds, List.filter_eq_nil_iff.mpr]
        · rfl
        · intro t ht; simpa using hfor d hds hne t ht
      omega
    have htok := tokenize_same (script_tokens d hds l hl hsc) s
    have hsame : ∀ t ∈ tokenize s l, Recognised l t → Recognised d t := by
      have := (filter_sub_length (fun t => decide (Recognised d t)) (fun t => decide (Recognised l t)) (tokenize s d) (by
        intro t ht hr
        simp only [decide_eq_true_eq] at hr ⊢
        exact h d hds t ht hr)).2 (by
          rw [score_tokens hds, score_tokens hl, ← htok] at hge
          exact hge)
      intro t ht hr
      rw [← htok] at ht
      simpa using this t ht (by simpa using hr)
    obtain ⟨t, ht, hr⟩ : ∃ t ∈ tokenize s l, Recognised l t := by
      apply Classical.byContradiction
      intro hn
      apply hz
      rw [score_tokens hl, List.filter_eq_nil_iff.mpr]
      · rfl
      · intro t ht hr
        exact hn ⟨t, ht, by simpa using hr⟩
    have hrd := hsame t ht hr
    by_cases hdl : d = l
    · exact Or.inl hdl
    · right; left
      have hne1 : ¬ (d = u!"en" ∧ l = u!"es") := by
        rintro ⟨rfl, rfl⟩; exact apart (a := u!"es") (b := u!"en") (by decide) (by decide) apart_es_en ⟨hr, hrd⟩
      have hne2 : ¬ (d = u!"es" ∧ l = u!"en") := by
        rintro ⟨rfl, rfl⟩; exact apart (a := u!"es") (b := u!"en") (by decide) (by decide) apart_es_en ⟨hrd, hr⟩
      have hne3 : ¬ (d = u!"uk" ∧ l = u!"ru") := by
        rintro ⟨rfl, rfl⟩
        have hx : u!"ru" ∈ x := by
          have e : x = [u!"en", u!"es", u!"hi", u!"ru"] := by
            exact (supportedSplit hs (b' := []) (by decide)).1
          rw [e]; decide
        obtain ⟨k', h3, h4⟩ := h1 _ hx
        rw [score_iff hl] at h3
        have := hle _ hds
        omega
      have key : ∀ d ∈ supported, ∀ l ∈ supported, langScript d = langScript l → d ≠ l → ¬ (d = u!"en" ∧ l = u!"es") → ¬ (d = u!"es" ∧ l = u!"en") →
          ¬ (d = u!"uk" ∧ l = u!"ru") → l = u!"uk" ∧ d = u!"ru" := by decide
      obtain ⟨e1, e2⟩ := key d hds l hl hsc hdl hne1 hne2 hne3
      refine ⟨e1, e2, fun t ht => ⟨fun hr => h d hds t (by rw [htok]; exact ht) hr, hsame t ht⟩⟩

end NumberParser
