import Verif.Props.Meaning
import Verif.Props.Sentences
import Verif.Props.Size

/-!
# C74: texts of number words only: parse, parse_number and parse_ordinal agree
-/

namespace NumberParser.Props
open NumberParser NumberParser.Spec

set_option maxRecDepth 100000

theorem decDigits_unique {m n : Nat} (h : decDigits m = decDigits n) : m = n := by
  obtain ⟨_, ds, h1, h2, _⟩ := (numeral_iff _ _).mp (numeral_decDigits m)
  obtain ⟨_, ds', h1', h2', _⟩ := (numeral_iff _ _).mp (numeral_decDigits n)
  rw [h, h1'] at h1
  cases h1
  rw [← h2, ← h2']

theorem spaced_two {x y : PyStr} {xs : List PyStr} : 0x20 ∈ spaced (x :: y :: xs) := by simp [spaced]

/-- A run that gives one number is read as this number. -/
theorem cut_single {l : PyStr} {is : List RunItem} {xs : List PyStr} (h : Cut l is xs) {n : Nat} (e : spaced xs = decDigits n) :
    ReadsAs l (runWords is) n := by
  cases h with
  | last hr => rw [← decDigits_unique (m := _) (n := n) e]; exact hr
  | @more is rest cs m k v xs hr he _ hc =>
    exfalso
    have h1 : 0x20 ∈ spaced (decDigits m :: cs ++ xs) := by
      rw [List.cons_append]
      cases hq : cs ++ xs with
      | nil => exact absurd (List.append_eq_nil_iff.mp hq).2 (cut_ne hc)
      | cons y ys => exact spaced_two
    rw [e] at h1
    have := (decDigits_isDigit n).2 _ h1
    omega

theorem spaced_solid {l : PyStr} {is : List RunItem} {xs : List PyStr} (h : Cut l is xs) :
    (∀ c cs, spaced xs = c :: cs → isSpace c = false) ∧ (∀ c cs, spaced xs = cs ++ [c] → isSpace c = false) ∧ spaced xs ≠ [] := by
  have h1 : ∃ m ys, xs = decDigits m :: ys := by
    cases h with
    | last => exact ⟨_, _, rfl⟩
    | more => exact ⟨_, _, rfl⟩
  have hd : ∀ m, ∀ c ∈ decDigits m, isSpace c = false := fun m c hc => isSpace_ascii_digit ((decDigits_isDigit m).2 c hc)
  obtain ⟨m, ys, e⟩ := h1
  obtain ⟨zs, n, e'⟩ := cut_last h
  have hm : ∃ c cs, decDigits m = c :: cs := by
    cases hq : decDigits m with
    | nil => exact absurd hq (decDigits_isDigit m).1
    | cons c cs => exact ⟨c, cs, rfl⟩
  obtain ⟨c0, cs0, hm⟩ := hm
  have hs : ∃ q, spaced xs = c0 :: q := by
    rw [e, hm]
    cases ys with
    | nil => exact ⟨cs0, rfl⟩
    | cons y ys => exact ⟨cs0 ++ u!" " ++ spaced (y :: ys), by simp only [spaced, List.cons_append]⟩
  obtain ⟨q, hs⟩ := hs
  have hl : ∃ q, spaced xs = q ++ decDigits n := by
    rw [e']
    clear e e' hs h
    induction zs with
    | nil => exact ⟨[], rfl⟩
    | cons z zs ih =>
      obtain ⟨q, hq⟩ := ih
      cases zs with
      | nil => exact ⟨z ++ u!" ", by simp [spaced]⟩
      | cons w zs =>
        refine ⟨z ++ u!" " ++ q, ?_⟩
        simp only [List.cons_append, spaced] at hq ⊢
        rw [hq]; simp
  obtain ⟨q', hl⟩ := hl
  refine ⟨?_, ?_, by rw [hs]; simp⟩
  · intro c cs hc
    rw [hs] at hc; cases hc
    exact hd m c0 (by rw [hm]; simp)
  · intro c cs hc
    rw [hl] at hc
    rcases List.eq_nil_or_concat (decDigits n) with hn | ⟨y, d, hn⟩
    · exact absurd hn (decDigits_isDigit n).1
    · rw [hn, List.concat_eq_append, ← List.append_assoc] at hc
      have := (List.append_inj_right' hc rfl)
      simp only [List.cons.injEq, and_true] at this
      subst this
      exact hd n d (by rw [hn]; simp)

theorem converted_blanks {l : PyStr} {lead ts : List PyStr} {out : PyStr} (h : ∀ t ∈ lead, ∀ c ∈ t, isSpace c = true)
    (hc : Converted l ts out) : Converted l (lead ++ ts) (lead.flatten ++ out) := by
  induction lead with
  | nil => exact hc
  | cons t lead ih =>
    rw [List.cons_append, List.flatten_cons, List.append_assoc]
    exact .keep (Or.inl (norm_space (h t (by simp)))) (ih (fun x hx => h x (by simp [hx])))

/-- The tokens are cardinal number words, conjunctions and blank tokens. -/
theorem runTokens_of {l : PyStr} {ts : List PyStr} (h : ∀ t ∈ ts, Cardinal l t ∨ Skip l t ∨ BlankForm t) : ∃ is, RunTokens l ts is := by
  induction ts with
  | nil => exact ⟨[], .nil⟩
  | cons t ts ih =>
    obtain ⟨is, hi⟩ := ih (fun x hx => h x (by simp [hx]))
    rcases h t (by simp) with ⟨k, v, hw⟩ | hs | hb
    · exact ⟨_, .word hw hi⟩
    · exact ⟨_, .conj hs hi⟩
    · exact ⟨_, .blank hb hi⟩

theorem runTokens_words {l : PyStr} {ts : List PyStr} {is : List RunItem} (h : RunTokens l ts is) : OnlyWords l ts (runWords is) := by
  induction h with
  | nil => exact .nil
  | word hw _ ih => exact .word hw ih
  | conj hs _ ih => exact .other (Or.inr hs) ih
  | blank hb _ ih => exact .other (Or.inl hb) ih

theorem onlyWords_blanks {l : PyStr} {lead ts : List PyStr} {ws : List (Class × Nat)} (h : ∀ t ∈ lead, BlankForm t)
    (hw : OnlyWords l ts ws) : OnlyWords l (lead ++ ts) ws := by
  induction lead with
  | nil => exact hw
  | cons t lead ih => exact .other (Or.inl (h t (by simp))) (ih (fun x hx => h x (by simp [hx])))

theorem letter_of_form {w : PyStr} {x : Nat} (hx : x ∈ norm w) (h1 : isNumericChar x = false) (h2 : isSpace x = false) :
    ∃ c ∈ w, isNumericChar c = false ∧ isSpace c = false := by
  obtain ⟨c, hc, hxc⟩ := mem_norm hx
  refine ⟨c, hc, ?_, ?_⟩
  · cases hn : isNumericChar c with
    | false => rfl
    | true =>
      have := normChars_preserved preserved_numeric (fun c h1 h2 hs => by rw [hangul_not_numeric h1 h2] at hs; cases hs) hn x hxc
      rw [h1] at this; cases this
  · cases hn : isSpace c with
    | false => rfl
    | true =>
      have := normChars_preserved preserved_space (fun c h1 h2 hs => by rw [word_not_space (hangul_word h1 h2)] at hs; cases hs) hn x hxc
      rw [h2] at this; cases this

theorem cardinal_letter {l : PyStr} (hl : l ∈ supported) {w : PyStr} (h : Cardinal l w) :
    ∃ x ∈ norm w, isNumericChar x = false ∧ isSpace x = false :=
  numOrSkip_wordy (supported_data hl) (t := norm w) (by unfold numOrSkip; rw [(cardinal_iff hl w).mp h]; rfl)

theorem wordInput_of_cardinal {l : PyStr} (hl : l ∈ supported) {s w : PyStr} (hw : w ∈ tokenize s l) (h : Cardinal l w) : WordInput s := by
  obtain ⟨x, hx, h1, h2⟩ := cardinal_letter hl h
  obtain ⟨c, hc, h3, h4⟩ := letter_of_form hx h1 h2
  have hcs := tokenize_sub hw c hc
  refine ⟨fun hb => ?_, fun hn => ?_⟩
  · rw [hb c hcs] at h4; cases h4
  · rw [numericText_iff, not_numeric_of_mem hcs h4 h3] at hn; cases hn

theorem withoutApostrophes_of {s : PyStr} (ha : 0x27 ∉ s ∧ 0x2019 ∉ s) : withoutApostrophes s = s := by
  unfold withoutApostrophes
  rw [List.filter_eq_self]
  intro c hc
  simp only [Bool.and_eq_true, bne_iff_ne, ne_eq]
  exact ⟨fun e => ha.1 (e ▸ hc), fun e => ha.2 (e ▸ hc)⟩

/-- What `parse` makes of a text of number words. -/
theorem parse_words {l : PyStr} (hl : l ∈ supported) {s : PyStr} {lead rest : List PyStr} {w : PyStr} (ht : Tokens l s (lead ++ w :: rest))
    (hlead : ∀ t ∈ lead, ∀ c ∈ t, isSpace c = true) (hw : Cardinal l w) (hrest : ∀ t ∈ rest, Cardinal l t ∨ Skip l t ∨ BlankForm t) :
    ∃ is xs, RunTokens l (w :: rest) is ∧ Cut l is xs ∧ parse s (some l) = .ok (spaced xs) := by
  obtain ⟨is, hi⟩ := runTokens_of (l := l) (ts := w :: rest) (fun t ht => by
    rcases List.mem_cons.mp ht with rfl | ht
    · exact Or.inl hw
    · exact hrest t ht)
  have hrun : Run l (w :: rest) is := ⟨hi, w, rest, rfl, hw⟩
  obtain ⟨k, v, is', rfl⟩ : ∃ k v is', is = .word k v :: is' := by
    cases hi with
    | word _ _ => exact ⟨_, _, _, rfl⟩
    | conj hs _ => exact absurd hs (cardinal_not_skip hl hw)
    | blank hb _ => exact absurd hb (cardinal_not_blank hl hw)
  obtain ⟨xs, hx⟩ := cut_exists (l := l) k v is'
  refine ⟨_, xs, hi, hx, ?_⟩
  have hconv := converted_blanks hlead (Converted.ending hrun hx)
  rw [(c55_parse l hl s _ ht _).mpr ⟨_, hconv, rfl⟩]
  have hsol := spaced_solid hx
  obtain ⟨ys, m, rfl⟩ := cut_last hx
  rw [withSpaces_snoc, strip_lead (fun c hc => by obtain ⟨t, ht, hct⟩ := List.mem_flatten.mp hc; exact hlead t ht c hct),
    strip_trail hsol.1 hsol.2.1 hsol.2.2 (by decide)]

/-- **C74**: a text of cardinal number words (and conjunctions) is converted to a single number exactly if `parse_number` reads it as this number. -/
theorem c74_number (l : PyStr) (hl : l ∈ supported) (s : PyStr) (lead rest : List PyStr) (w : PyStr) (ht : Tokens l s (lead ++ w :: rest))
    (hlead : ∀ t ∈ lead, ∀ c ∈ t, isSpace c = true) (hw : Cardinal l w) (hrest : ∀ t ∈ rest, Cardinal l t ∨ Skip l t ∨ BlankForm t)
    (ha : 0x27 ∉ s ∧ 0x2019 ∉ s) (n : Nat) : parse s (some l) = .ok (decDigits n) ↔ parseNumber s (some l) = .ok (some n) := by
  refine ⟨fun h => ?_, fun h => c18_parse_agrees l hl s lead rest w ht hlead hw ha n h⟩
  have hwi : WordInput s := wordInput_of_cardinal hl (w := w) (by rw [← (tokens_iff _ _ _).mp ht]; simp) hw
  have hts : Tokens l (withoutApostrophes s) (lead ++ w :: rest) := by rw [withoutApostrophes_of ha]; exact ht
  obtain ⟨is, xs, hi, hx, hp⟩ := parse_words hl ht hlead hw hrest
  rw [hp] at h
  injection h with h
  have hread := cut_single hx h
  have hall : OnlyWords l (lead ++ w :: rest) (runWords is) :=
    onlyWords_blanks (fun t ht => norm_space (hlead t ht)) (runTokens_words hi)
  cases lead with
  | nil => exact (c54_number l hl s hwi w rest hts n).mpr ⟨cardinal_not_skip hl hw, _, hall, hread⟩
  | cons t lead =>
    refine (c54_number l hl s hwi t _ hts n).mpr ⟨fun hs => ?_, _, hall, hread⟩
    have := (blank_not_number (supported_data hl) ((blankForm_iff t).mp (norm_space (hlead t (by simp))))).2
    rw [skip_iff, this] at hs
    cases hs

/-! ## Ordinals -/

theorem irregular_numeric {f : PyStr} (h : ∀ c ∈ f, isNumericChar c = true) : irregular f = f := by
  have key : ∀ ps : List (PyStr × PyStr), (∀ p ∈ ps, ∃ a r, p.1 = a :: r ∧ isNumericChar a = false) →
      ps.foldl (fun f p => replace f p.1 p.2) f = f := by
    intro ps
    induction ps with
    | nil => intro _; rfl
    | cons p ps ih =>
      intro hp
      obtain ⟨a, r, e, hn⟩ := hp p (by simp)
      have : replace f p.1 p.2 = f := by
        unfold replace
        rw [e]
        exact replaceGo_absent a r p.2 f (fun hm => by rw [h a hm] at hn; cases hn)
      rw [List.foldl_cons, this]
      exact ih (fun q hq => hp q (by simp [hq]))
  refine key irregulars ?_
  have hchk : ∀ p ∈ irregulars, (match p.1 with | [] => false | a :: _ => !isNumericChar a) = true := by decide +kernel
  intro p hp
  have := hchk p hp
  cases h1 : p.1 with
  | nil => rw [h1] at this; cases this
  | cons a r => rw [h1] at this; exact ⟨a, r, rfl, by simpa using this⟩

theorem ordinal_letter {l : PyStr} {w : PyStr} {k : Class} {v : Nat} (h : OrdinalWord l k v w) :
    ∃ x ∈ form w, isNumericChar x = false := by
  refine Classical.byContradiction fun hno => ?_
  have hnum : ∀ x ∈ form w, isNumericChar x = true := fun x hx => by
    cases hn : isNumericChar x with
    | true => rfl
    | false => exact absurd ⟨x, hx, hn⟩ hno
  obtain ⟨hnc, c, hc, hs⟩ := h
  rw [irregular_numeric hnum] at hs
  have ht : isNumericChar 0x74 = false := by decide +kernel
  rcases hs with e | e | ⟨stem, _, e⟩
  · exact hnc ⟨k, v, by unfold Word; rw [e]; exact hc⟩
  · rw [hnum 0x74 (by rw [e]; simp)] at ht; cases ht
  · rw [hnum 0x74 (by rw [e]; simp)] at ht; cases ht

theorem ordinal_not_blank {l : PyStr} (hl : l ∈ supported) {w : PyStr} {k : Class} {v : Nat} (h : OrdinalWord l k v w) : ¬ BlankForm w ∧ ¬ Skip l w := by
  obtain ⟨_, c, hf, hst⟩ := h
  have h1 := (numberToken_iff hl (f := norm w)).mpr ⟨⟨k, v, hf⟩, hst⟩
  refine ⟨fun hb => ?_, fun hs => ?_⟩
  · rw [blankForm_iff] at hb
    rw [(blank_not_number (supported_data hl) hb).1] at h1; cases h1
  · rw [skip_iff] at hs
    rw [skip_number (languageData_wf (supported_data hl)) hs] at h1; cases h1

theorem ordinal_unique {l : PyStr} (hl : l ∈ supported) {w : PyStr} {k k' : Class} {v v' : Nat} (h : OrdinalWord l k v w) (h' : OrdinalWord l k' v' w) :
    k = k' ∧ v = v' := by
  obtain ⟨_, c, hf, hst⟩ := h
  obtain ⟨_, c', hf', hst'⟩ := h'
  have e := standsFor_unique hl ⟨k, v, hf⟩ ⟨k', v', hf'⟩ hst hst'
  subst e
  have h1 := kindOf_word hl hf
  have h2 := kindOf_word hl hf'
  rw [h1] at h2
  cases k <;> cases k' <;> simp_all

theorem onlyNumbers_unique {l : PyStr} (hl : l ∈ supported) {ts : List PyStr} (hap : ∀ t ∈ ts, withoutApostrophes t = t) {ws ws' : List (Class × Nat)}
    (h : OnlyNumbers l ts ws) (h' : OnlyNumbers l ts ws') : ws = ws' := by
  have excl : ∀ {t : PyStr} {k : Class} {v : Nat}, withoutApostrophes t = t → (Word l k v (withoutApostrophes t) ∨ OrdinalWord l k v t) →
      ¬ (BlankForm (withoutApostrophes t) ∨ Skip l (withoutApostrophes t)) := by
    intro t k v e hw
    rw [e] at hw ⊢
    rcases hw with hw | hw
    · rintro (hb | hs)
      · exact cardinal_not_blank hl ⟨_, _, hw⟩ hb
      · exact cardinal_not_skip hl ⟨_, _, hw⟩ hs
    · have := ordinal_not_blank hl hw
      rintro (hb | hs)
      · exact this.1 hb
      · exact this.2 hs
  induction h generalizing ws' with
  | nil => cases h'; rfl
  | @word t k v ts ws hw _ ih =>
    have e := hap t (by simp)
    cases h' with
    | @word _ k' v' _ _ hw' h' =>
      have : k = k' ∧ v = v' := by
        rw [e] at hw hw'
        rcases hw with hw | hw <;> rcases hw' with hw' | hw'
        · exact word_unique hl hw hw'
        · exact absurd ⟨_, _, hw⟩ hw'.1
        · exact absurd ⟨_, _, hw'⟩ hw.1
        · exact ordinal_unique hl hw hw'
      obtain ⟨rfl, rfl⟩ := this
      rw [ih (fun t ht => hap t (by simp [ht])) h']
    | other ho _ => exact absurd ho (excl e hw)
  | @other t ts ws ho _ ih =>
    cases h' with
    | word hw' _ => exact absurd ho (excl (hap t (by simp)) hw')
    | other _ h' => exact ih (fun t ht => hap t (by simp [ht])) h'

theorem onlyNumbers_blanks {l : PyStr} {lead ts : List PyStr} {ws : List (Class × Nat)} (h : ∀ t ∈ lead, BlankForm (withoutApostrophes t))
    (hw : OnlyNumbers l ts ws) : OnlyNumbers l (lead ++ ts) ws := by
  induction lead with
  | nil => exact hw
  | cons t lead ih => exact .other (Or.inl (h t (by simp))) (ih (fun x hx => h x (by simp [hx])))

theorem runTokens_numbers {l : PyStr} {ts rest : List PyStr} {is : List RunItem} {ws : List (Class × Nat)} (hap : ∀ t ∈ ts, withoutApostrophes t = t)
    (h : RunTokens l ts is) (hr : OnlyNumbers l rest ws) : OnlyNumbers l (ts ++ rest) (runWords is ++ ws) := by
  induction h with
  | nil => exact hr
  | @word t k v ts is hw _ ih => exact .word (Or.inl (by rw [hap t (by simp)]; exact hw)) (ih (fun t ht => hap t (by simp [ht])))
  | @conj t ts is hs _ ih => exact .other (Or.inr (by rw [hap t (by simp)]; exact hs)) (ih (fun t ht => hap t (by simp [ht])))
  | @blank t ts is hb _ ih => exact .other (Or.inl (by rw [hap t (by simp)]; exact hb)) (ih (fun t ht => hap t (by simp [ht])))

/-- A run that is read as one number is not cut. -/
theorem cut_reads {l : PyStr} {is : List RunItem} {n : Nat} (h : ReadsAs l (runWords is) n) : Cut l is [decDigits n] := .last h

/-- **C74**: a text that begins with a cardinal number word (or has one word only) and ends with an ordinal, the others being cardinals or conjunctions,
is converted to a single number exactly if `parse_ordinal` reads it as this number. -/
theorem c74_ordinal (l : PyStr) (hl : l ∈ supported) (s : PyStr) (lead ts trail : List PyStr) (w : PyStr) (k : Class) (v : Nat)
    (ht : Tokens l s (lead ++ (ts ++ w :: trail))) (hlead : ∀ t ∈ lead, ∀ c ∈ t, isSpace c = true) (htrail : ∀ t ∈ trail, ∀ c ∈ t, isSpace c = true)
    (hfirst : ts = [] ∨ ∃ t ts', ts = t :: ts' ∧ Cardinal l t) (hts : ∀ t ∈ ts, Cardinal l t ∨ Skip l t ∨ BlankForm t) (hw : OrdinalWord l k v w)
    (ha : 0x27 ∉ s ∧ 0x2019 ∉ s) (n : Nat) : parse s (some l) = .ok (decDigits n) ↔ parseOrdinal s (some l) = .ok (some n) := by
  have has := withoutApostrophes_of ha
  have htok := (tokens_iff _ _ _).mp ht
  have hap : ∀ t ∈ lead ++ (ts ++ w :: trail), withoutApostrophes t = t := by
    intro t htm
    rw [htok] at htm
    unfold withoutApostrophes at *
    rw [List.filter_eq_self] at *
    exact fun c hc => has c (tokenize_sub htm c hc)
  obtain ⟨is, hi⟩ := runTokens_of hts
  -- what `parse` does
  have hcut : ∃ xs, Cut l (is ++ [.word k v]) xs := by
    rcases hfirst with rfl | ⟨t, ts', rfl, hc⟩
    · cases hi; exact cut_exists k v []
    · cases hi with
      | word _ _ => exact cut_exists _ _ _
      | conj hs _ => exact absurd hs (cardinal_not_skip hl hc)
      | blank hb _ => exact absurd hb (cardinal_not_blank hl hc)
  obtain ⟨xs, hx⟩ := hcut
  have hrun : ts = [] ∧ is = [] ∨ Run l ts is := by
    rcases hfirst with rfl | ⟨t, ts', rfl, hc⟩
    · cases hi; exact Or.inl ⟨rfl, rfl⟩
    · exact Or.inr ⟨hi, t, ts', rfl, hc⟩
  have htr : Converted l trail trail.flatten := by
    have := converted_blanks (l := l) htrail .nil
    simpa using this
  have hp := (c55_parse l hl s _ ht _).mpr ⟨_, converted_blanks hlead (Converted.ordinal hrun hw hx htr), rfl⟩
  have hsol := spaced_solid hx
  have e : strip (lead.flatten ++ (spaced xs ++ trail.flatten)) = spaced xs := by
    rw [strip_lead (fun c hc => by obtain ⟨t, ht, hct⟩ := List.mem_flatten.mp hc; exact hlead t ht c hct),
      strip_trail hsol.1 hsol.2.1 hsol.2.2 (fun c hc => by obtain ⟨t, ht, hct⟩ := List.mem_flatten.mp hc; exact htrail t ht c hct)]
  rw [e] at hp
  -- what `parse_ordinal` does
  have hbl : ∀ bs : List PyStr, (∀ t ∈ bs, t ∈ lead ++ (ts ++ w :: trail)) → (∀ t ∈ bs, ∀ c ∈ t, isSpace c = true) →
      ∀ t ∈ bs, BlankForm (withoutApostrophes t) := by
    intro bs h1 h2 t htm
    rw [hap t (h1 t htm)]
    exact norm_space (h2 t htm)
  have hnum : OnlyNumbers l (lead ++ (ts ++ w :: trail)) (runWords (is ++ [.word k v])) := by
    rw [runWords_append]
    refine onlyNumbers_blanks (hbl lead (fun t h => List.mem_append_left _ h) hlead) ?_
    refine runTokens_numbers (fun t h => hap t (List.mem_append_right _ (List.mem_append_left _ h))) hi ?_
    refine .word (Or.inr hw) ?_
    have := onlyNumbers_blanks (l := l) (hbl trail (fun t h => by simp [h]) htrail) .nil
    rw [List.append_nil] at this
    exact this
  have hwm : w ∈ lead ++ (ts ++ w :: trail) := by simp
  have hnb := (ordinal_not_blank hl hw).1
  have hns : ¬ SingleNumeral (lead ++ (ts ++ w :: trail)) := by
    rintro ⟨a, t, b, he, hab, hbb, _, hn⟩
    rw [he] at hwm
    rcases List.mem_append.mp hwm with h | h
    · exact hnb (hab w h)
    · rcases List.mem_cons.mp h with rfl | h
      · obtain ⟨x, hxm, hxn⟩ := ordinal_letter hw
        rw [hn x hxm] at hxn; cases hxn
      · exact hnb (hbb w h)
  have key : parseOrdinal s (some l) = .ok (some n) ↔ ReadsAs l (runWords (is ++ [.word k v])) n := by
    obtain ⟨t0, ts0, h0⟩ : ∃ t0 ts0, lead ++ (ts ++ w :: trail) = t0 :: ts0 := by
      cases h : lead ++ (ts ++ w :: trail) with
      | nil => rw [h] at hwm; cases hwm
      | cons a b => exact ⟨a, b, rfl⟩
    rw [h0] at ht hnum hwm hns hap
    rw [c56_ordinal l hl s t0 ts0 ht ⟨w, hwm, hnb⟩ hns n]
    constructor
    · rintro ⟨_, ws, h1, h2⟩
      rw [onlyNumbers_unique hl hap hnum h1]; exact h2
    · intro h
      refine ⟨?_, _, hnum, h⟩
      rw [hap t0 (by simp)]
      -- the first token is no conjunction
      have hblank : ∀ t : PyStr, (∀ c ∈ t, isSpace c = true) → ¬ Skip l t := by
        intro t htb hs
        rw [skip_iff, (blank_not_number (supported_data hl) ((blankForm_iff t).mp (norm_space htb))).2] at hs
        cases hs
      cases lead with
      | cons t lead => rw [List.cons_append] at h0; injection h0 with h0 _; rw [← h0]; exact hblank t (hlead t (by simp))
      | nil =>
        rcases hfirst with rfl | ⟨t, ts', rfl, hc⟩
        · rw [List.nil_append, List.nil_append] at h0; injection h0 with h0 _; rw [← h0]; exact (ordinal_not_blank hl hw).2
        · rw [List.nil_append, List.cons_append] at h0; injection h0 with h0 _; rw [← h0]; exact cardinal_not_skip hl hc
  rw [key, hp]
  constructor
  · intro h
    injection h with h
    exact cut_single hx h
  · intro h
    have h1 := (c55_parse l hl s _ ht _).mpr ⟨_, converted_blanks hlead (Converted.ordinal hrun hw (cut_reads h) htr), rfl⟩
    have hsol' := spaced_solid (cut_reads h)
    rw [strip_lead (fun c hc => by obtain ⟨t, ht, hct⟩ := List.mem_flatten.mp hc; exact hlead t ht c hct),
      strip_trail hsol'.1 hsol'.2.1 hsol'.2.2 (fun c hc => by obtain ⟨t, ht, hct⟩ := List.mem_flatten.mp hc; exact htrail t ht c hct), hp] at h1
    rw [h1]; rfl

/-- **C74**: such a text is no number for `parse_number` exactly if `parse` makes several numbers of it. -/
theorem c74_several (l : PyStr) (hl : l ∈ supported) (s : PyStr) (lead rest : List PyStr) (w : PyStr) (ht : Tokens l s (lead ++ w :: rest))
    (hlead : ∀ t ∈ lead, ∀ c ∈ t, isSpace c = true) (hw : Cardinal l w) (hrest : ∀ t ∈ rest, Cardinal l t ∨ Skip l t ∨ BlankForm t)
    (ha : 0x27 ∉ s ∧ 0x2019 ∉ s) (out : PyStr) (h : parse s (some l) = .ok out) : parseNumber s (some l) = .ok none ↔ 0x20 ∈ out := by
  have hnum := c74_number l hl s lead rest w ht hlead hw hrest ha
  have hdig : ∀ n, 0x20 ∉ decDigits n := fun n hm => by have := (decDigits_isDigit n).2 _ hm; omega
  have hwi : WordInput s := wordInput_of_cardinal hl (w := w) (by rw [← (tokens_iff _ _ _).mp ht]; simp) hw
  obtain ⟨is, xs, hi, hx, hp⟩ := parse_words hl ht hlead hw hrest
  rw [hp] at h
  cases h
  constructor
  · intro hn
    cases hx with
    | @last _ n hr =>
      have := (hnum n).mp hp
      rw [hn] at this; cases this
    | @more is rest cs m k v xs hr he _ hc =>
      rw [List.cons_append]
      cases hq : cs ++ xs with
      | nil => exact absurd (List.append_eq_nil_iff.mp hq).2 (cut_ne hc)
      | cons y ys => exact spaced_two
  · intro hm
    cases hr : parseNumber s (some l) with
    | error e => exact absurd ((c24_supported_number s l hl e).mp hr).2.1 hwi.2
    | ok r =>
      cases r with
      | none => rfl
      | some n =>
        have := (hnum n).mpr hr
        rw [hp] at this
        injection this with this
        rw [this] at hm
        exact absurd hm (hdig n)

/-- Texts that meet the hypotheses, with both outcomes. -/
example : parse u!"twenty one" (some u!"en") = .ok u!"21" ∧ parseNumber u!"twenty one" (some u!"en") = .ok (some 21) ∧
    parse u!"one twenty" (some u!"en") = .ok u!"1 20" ∧ parseNumber u!"one twenty" (some u!"en") = .ok none ∧
    parse u!" two hundred and first " (some u!"en") = .ok u!"201" ∧ parseOrdinal u!" two hundred and first " (some u!"en") = .ok (some 201) := by
  decide +kernel

example (n : Nat) : parse u!"one twenty" (some u!"en") = .ok (decDigits n) ↔ parseNumber u!"one twenty" (some u!"en") = .ok (some n) := by
  refine c74_number u!"en" (by decide) _ [] [u!" ", u!"twenty"] u!"one" ((tokens_iff _ _ _).mpr (by decide +kernel)) (by simp)
    ((cardinal_iff (by decide) _).mpr (by decide +kernel)) ?_ (by decide) n
  intro t ht
  simp only [List.mem_cons, List.not_mem_nil, or_false] at ht
  rcases ht with rfl | rfl
  · exact Or.inr (Or.inr ((blankForm_iff _).mpr (by decide +kernel)))
  · exact Or.inl ((cardinal_iff (by decide) _).mpr (by decide +kernel))

example (n : Nat) : parse u!"twenty first" (some u!"en") = .ok (decDigits n) ↔ parseOrdinal u!"twenty first" (some u!"en") = .ok (some n) := by
  have hc : Cardinal u!"en" u!"twenty" := (cardinal_iff (by decide) _).mpr (by decide +kernel)
  refine c74_ordinal u!"en" (by decide) _ [] [u!"twenty", u!" "] [] u!"first" .unit 1 ((tokens_iff _ _ _).mpr (by decide +kernel)) (by simp) (by simp)
    (Or.inr ⟨_, _, rfl, hc⟩) ?_ ⟨?_, u!"one", ⟨u!"one", by decide +kernel, by decide +kernel⟩, Or.inl (by decide +kernel)⟩ (by decide) n
  · intro t ht
    simp only [List.mem_cons, List.not_mem_nil, or_false] at ht
    rcases ht with rfl | rfl
    · exact Or.inl hc
    · exact Or.inr (Or.inr ((blankForm_iff _).mpr (by decide +kernel)))
  · rw [cardinal_iff (by decide)]; decide +kernel

/-- An ordinal inside the text: `parse` ends a number with it, `parse_ordinal` reads on. -/
theorem c74_refuted : parseOrdinal u!"twentieth one" (some u!"en") = .ok (some 21) ∧ parse u!"twentieth one" (some u!"en") = .ok u!"20 1" := by
  decide +kernel

end NumberParser.Props
