import Verif.Proofs.Transport
import Verif.Spec.Closed
import Verif.Proofs.Concat
import Verif.Proofs.OrdinalMeaning

/-! Conversion of concatenated texts (C58, C59). -/

set_option linter.unusedSimpArgs false

namespace NumberParser
open Spec

set_option maxRecDepth 100000

theorem endsClosed_suffix {l : PyStr} {a b : List PyStr} (h : EndsClosed l (a ++ b)) : EndsClosed l b := by
  rcases h with h | ⟨x, t, bl, e, h, hb⟩
  · exact Or.inl (fun x hx => h x (List.mem_append_right _ hx))
  · rcases List.append_eq_append_iff.mp e with ⟨z, rfl, e2⟩ | ⟨z, rfl, e2⟩
    · exact Or.inr ⟨z, t, bl, e2, h, hb⟩
    · cases z with
      | nil => exact Or.inr ⟨[], t, bl, by simpa using e2.symm, h, hb⟩
      | cons d z =>
        injection e2 with e1 e2
        left
        intro x hx
        exact hb x (by rw [e2]; exact List.mem_append_right _ hx)

theorem closing_facts {l : PyStr} (hl : l ∈ supported) {t : PyStr} (h : Closing l t) : ¬ Cardinal l t ∧ ¬ Skip l t ∧ ¬ BlankForm t := by
  have hd := supported_data hl
  rcases h with h | ⟨k, v, hn, c, hf, hst⟩
  · refine ⟨?_, h.2.2, ?_⟩
    · intro hc
      apply h.2.1
      have hm := (cardinal_iff hl t).mp hc
      have hk := key_conv (languageData_wf hd) hm
      rw [numberWord_iff hl]
      unfold isNumberToken
      rw [hk]
      unfold isCardinalToken
      rw [hm]; rfl
    · intro hb
      obtain ⟨c, hc, hs⟩ := h.1
      rw [hb c hc] at hs; cases hs
  · have h1 := (numberToken_iff hl (f := norm t)).mpr ⟨⟨k, v, hf⟩, hst⟩
    refine ⟨hn, ?_, ?_⟩
    · intro hs
      rw [skip_iff] at hs
      rw [skip_number (languageData_wf hd) hs] at h1; cases h1
    · intro hb
      rw [blankForm_iff] at hb
      rw [(blank_not_number hd hb).1] at h1; cases h1

theorem runTokens_open {l : PyStr} (hl : l ∈ supported) {ts : List PyStr} {is : List RunItem} (h : RunTokens l ts is) :
    ∀ t ∈ ts, ¬ Closing l t := by
  induction h with
  | nil => simp
  | word hw _ ih =>
    intro x hx hc
    rcases List.mem_cons.mp hx with rfl | hx
    · exact (closing_facts hl hc).1 ⟨_, _, hw⟩
    · exact ih x hx hc
  | conj hw _ ih =>
    intro x hx hc
    rcases List.mem_cons.mp hx with rfl | hx
    · exact (closing_facts hl hc).2.1 hw
    · exact ih x hx hc
  | blank hw _ ih =>
    intro x hx hc
    rcases List.mem_cons.mp hx with rfl | hx
    · exact (closing_facts hl hc).2.2 hw
    · exact ih x hx hc

theorem cardinal_not_blank {l : PyStr} (hl : l ∈ supported) {t : PyStr} (h : Cardinal l t) : ¬ BlankForm t := by
  intro hb
  rw [blankForm_iff, key_blank (languageData_wf (supported_data hl)) ((cardinal_iff hl t).mp h)] at hb
  cases hb

theorem run_not_closed {l : PyStr} (hl : l ∈ supported) {ts : List PyStr} {is : List RunItem} (h : Run l ts is) : ¬ EndsClosed l ts := by
  obtain ⟨h1, t, ts', rfl, hc⟩ := h
  rintro (he | ⟨a, x, bl, e, hx, _⟩)
  · exact cardinal_not_blank hl hc (he t (by simp))
  · exact runTokens_open hl h1 x (by rw [e]; simp) hx

/-- What comes after a closing token does not influence what is before it, and conversely. -/
theorem converted_append {l : PyStr} (hl : l ∈ supported) {a b : List PyStr} {x y : PyStr} (ha : Converted l a x) (he : EndsClosed l a)
    (hb : Converted l b y) : Converted l (a ++ b) (x ++ y) := by
  induction ha with
  | nil => exact hb
  | @keep t ts out hk _ ih =>
    rw [List.append_assoc]
    exact .keep hk (ih (endsClosed_suffix (a := [t]) he))
  | ending hrun hcut => exact absurd he (run_not_closed hl hrun)
  | @mark run is xs t ts out hrun hcut hm hbl _ ih =>
    rw [List.append_assoc, List.append_assoc]
    exact .mark hrun hcut hm hbl (ih (endsClosed_suffix (a := run ++ [t]) (by simpa using he)))
  | @markTight run is xs t ts out hrun hcut hm hbl _ ih =>
    rw [List.append_assoc, List.append_assoc]
    exact .markTight hrun hcut hm hbl (ih (endsClosed_suffix (a := run ++ [t]) (by simpa using he)))
  | @word run is xs t ts out hrun hlast hcut ho hm _ ih =>
    rw [List.append_assoc, List.append_assoc]
    exact .word hrun hlast hcut ho hm (ih (endsClosed_suffix (a := run ++ [t]) (by simpa using he)))
  | @conjWord run is f xs t ts out hrun hcut ho hm _ ih =>
    rw [List.append_assoc, List.append_assoc]
    exact .conjWord hrun hcut ho hm (ih (endsClosed_suffix (a := run ++ [t]) (by simpa using he)))
  | @ordinal run is xs t k v ts out hrun ho hcut _ ih =>
    rw [List.append_assoc, List.append_assoc]
    exact .ordinal hrun ho hcut (ih (endsClosed_suffix (a := run ++ [t]) (by simpa using he)))

/-- The last character is no white space. -/
def EndsNS (x : PyStr) : Prop := ∃ y c, x = y ++ [c] ∧ isSpace c = false

theorem endsNS_append {x y : PyStr} (h : EndsNS y) : EndsNS (x ++ y) := by
  obtain ⟨z, c, rfl, h⟩ := h
  exact ⟨x ++ z, c, by simp, h⟩

theorem endsNS_of {x : PyStr} (hne : x ≠ []) (h : ∀ c ∈ x, isSpace c = false) : EndsNS x := by
  rcases List.eq_nil_or_concat x with rfl | ⟨y, c, rfl⟩
  · exact absurd rfl hne
  · exact ⟨y, c, by simp, h c (by simp)⟩

theorem endsNS_spaced {xs : List PyStr} {x : PyStr} (h : EndsNS x) : EndsNS (spaced (xs ++ [x])) := by
  induction xs with
  | nil => exact h
  | cons y xs ih =>
    cases xs with
    | nil => exact endsNS_append ih
    | cons z xs => exact endsNS_append ih

theorem digits_endsNS (n : Nat) : EndsNS (decDigits n) := by
  have := decDigits_isDigit n
  apply endsNS_of this.1
  intro c hc
  have := this.2 c hc
  exact isSpace_ascii_digit this

theorem cut_last {l : PyStr} {is : List RunItem} {xs : List PyStr} (h : Cut l is xs) : ∃ ys n, xs = ys ++ [decDigits n] := by
  induction h with
  | @last is n _ => exact ⟨[], n, rfl⟩
  | more _ _ _ _ ih =>
    obtain ⟨ys, n, rfl⟩ := ih
    exact ⟨_, n, (List.append_assoc _ _ _).symm⟩

theorem converted_empty {l : PyStr} (hl : l ∈ supported) {ts : List PyStr} {x : PyStr} (h : Converted l ts x) (he : ts.flatten = []) : x = [] := by
  have hb : ∀ t : PyStr, t = [] → BlankForm t := by rintro t rfl; exact blankForm_nil
  have hc : Converted l ts [] := by
    clear h
    induction ts with
    | nil => exact .nil
    | cons t ts ih =>
      rw [List.flatten_cons] at he
      obtain ⟨e1, e2⟩ := List.append_eq_nil_iff.mp he
      subst e1
      exact Converted.keep (Or.inl (hb [] rfl)) (ih e2)
  rw [← converted_pieces hl h, converted_pieces hl hc]

theorem endsNS_tail {a b : PyStr} (h : EndsNS (a ++ b)) (hb : b ≠ []) : EndsNS b := by
  obtain ⟨y, c, e, hc⟩ := h
  rcases List.eq_nil_or_concat b with rfl | ⟨b', d, rfl⟩
  · exact absurd rfl hb
  · rw [List.concat_eq_append, ← List.append_assoc] at e
    obtain ⟨_, e2⟩ := List.append_inj' e rfl
    injection e2 with e2 _
    exact ⟨b', d, by simp, by rw [e2]; exact hc⟩

theorem mark_text {t : PyStr} (h : Mark t) : t ≠ [] := by
  rintro rfl
  rcases h with h | h <;> cases h

/-- The end of the conversion of a text that ends solid. -/
theorem converted_endsNS {l : PyStr} (hl : l ∈ supported) {ts : List PyStr} {x : PyStr} (h : Converted l ts x) (he : EndsClosed l ts)
    (hs : EndsNS ts.flatten) : EndsNS x := by
  have tail : ∀ {pre ts : List PyStr} {t : PyStr} {o q out : PyStr}, EndsNS (pre ++ t :: ts).flatten → (EndsNS ts.flatten → EndsNS out) →
      (EndsNS t → EndsNS (o ++ q)) → (t = [] → EndsNS (o ++ q)) → Converted l ts out → EndsNS (o ++ q ++ out) := by
    intro pre ts t o q out hs ih ht ht' hc
    rw [List.flatten_append, List.flatten_cons, ← List.append_assoc] at hs
    by_cases hf : ts.flatten = []
    · rw [converted_empty hl hc hf, List.append_nil]
      rw [hf, List.append_nil] at hs
      by_cases h0 : t = []
      · exact ht' h0
      · exact ht (endsNS_tail hs h0)
    · exact endsNS_append (ih (endsNS_tail hs hf))
  induction h with
  | nil => obtain ⟨y, c, e, _⟩ := hs; cases y <;> cases e
  | @keep t ts out hk hc ih =>
    rw [List.flatten_cons] at hs
    by_cases hf : ts.flatten = []
    · rw [converted_empty hl hc hf]
      rwa [hf] at hs
    · exact endsNS_append (ih (endsClosed_suffix (a := [t]) he) (endsNS_tail hs hf))
  | ending hrun hcut => exact absurd he (run_not_closed hl hrun)
  | @mark run is xs t ts out hrun hcut hm hbl hc ih =>
    exact tail hs (ih (endsClosed_suffix (a := run ++ [t]) (by simpa using he))) endsNS_append (fun h => absurd h (mark_text hm)) hc
  | @markTight run is xs t ts out hrun hcut hm hbl hc ih =>
    exact tail hs (ih (endsClosed_suffix (a := run ++ [t]) (by simpa using he))) endsNS_append (fun h => absurd h (mark_text hm)) hc
  | @word run is xs t ts out hrun hlast hcut ho hm hc ih =>
    exact tail hs (ih (endsClosed_suffix (a := run ++ [t]) (by simpa using he))) endsNS_append
      (fun h => by obtain ⟨⟨c, h', _⟩, _⟩ := ho; rw [h] at h'; cases h') hc
  | @conjWord run is f xs t ts out hrun hcut ho hm hc ih =>
    exact tail hs (ih (endsClosed_suffix (a := run ++ [t]) (by simpa using he))) endsNS_append
      (fun h => by obtain ⟨⟨c, h', _⟩, _⟩ := ho; rw [h] at h'; cases h') hc
  | @ordinal run is xs t k v ts out hrun ho hcut hc ih =>
    obtain ⟨ys, n, rfl⟩ := cut_last hcut
    have hd := endsNS_spaced (xs := ys) (digits_endsNS n)
    have := tail (o := spaced (ys ++ [decDigits n])) (q := []) hs (ih (endsClosed_suffix (a := run ++ [t]) (by simpa using he)))
      (fun _ => by simpa using hd) (fun _ => by simpa using hd) hc
    simpa using this

/-! ### Tokens of concatenated texts -/

theorem wordTokens_append {a b : List PyStr} {c : Nat} (ha : WordTokens a) (hb : WordTokens b) (hc : isWord c = false) :
    WordTokens (a ++ [c] :: b) := by
  induction ha with
  | last hw => exact .cons hw hc hb
  | cons hw h _ ih => exact .cons hw h ih

theorem spaceTokens_head {t : PyStr} {ts : List PyStr} (h : SpaceTokens (t :: ts)) (he : t = []) (hs : StartsNS (t :: ts).flatten) : ts = [] := by
  subst he
  cases h with
  | last _ => rfl
  | @cons _ g w' ts' _ hne hg _ _ =>
    exfalso
    cases g with
    | nil => exact hne rfl
    | cons d g =>
      have := hs d (g ++ (w' ++ ts'.flatten)) rfl
      rw [hg d (by simp)] at this; cases this

theorem spaceTokens_append {a b : List PyStr} {g : PyStr} (ha : SpaceTokens a) (hb : SpaceTokens b) (hg : ∀ c ∈ g, isSpace c = true) (hne : g ≠ [])
    (hae : EndsNS a.flatten) (hbs : StartsNS b.flatten) : SpaceTokens (a ++ g :: b) := by
  induction ha with
  | last hw =>
    cases b with
    | nil => cases hb
    | cons t ts =>
      exact .cons hw hne hg (fun e => spaceTokens_head hb e hbs) hb
  | @cons w g' w' ts hw hne' hg' hl h ih =>
    have he : EndsNS (w' :: ts).flatten := by
      by_cases h0 : (w' :: ts).flatten = []
      · exfalso
        rw [List.flatten_cons, List.flatten_cons, h0, List.append_nil] at hae
        obtain ⟨y, c, e, hc⟩ := endsNS_tail hae hne'
        rw [hg' c (by rw [e]; simp)] at hc; cases hc
      · rw [List.flatten_cons, List.flatten_cons, ← List.append_assoc] at hae
        exact endsNS_tail hae h0
    refine .cons hw hne' hg' ?_ (ih he)
    intro e
    exfalso
    rw [hl e, e] at he
    obtain ⟨y, c, e, _⟩ := he
    cases y <;> cases e

/-- The tokens of a text, a gap of white space and another text. -/
theorem tokens_gap {l a g b : PyStr} {ta tb : List PyStr} (ha : Tokens l a ta) (hb : Tokens l b tb) (hg : ∀ c ∈ g, isSpace c = true) (hne : g ≠ [])
    (hae : EndsNS (withoutSoftHyphens a)) (hbs : StartsNS (withoutSoftHyphens b)) :
    ∃ mid, Tokens l (a ++ g ++ b) (ta ++ mid ++ tb) ∧ mid.flatten = g ∧ ∀ t ∈ mid, ∀ c ∈ t, isSpace c = true := by
  have hw : withoutSoftHyphens g = g := by
    apply List.filter_eq_self.mpr
    intro c hc
    have := hg c hc
    rw [bne_iff_ne]; rintro rfl; revert this; decide
  have hflat : ∀ mid : List PyStr, mid.flatten = g → (ta ++ mid ++ tb).flatten = withoutSoftHyphens (a ++ g ++ b) := by
    intro mid hm
    rw [List.flatten_append, List.flatten_append, hm, ha.1, hb.1]
    conv => lhs; rw [← hw]
    unfold withoutSoftHyphens
    rw [List.filter_append, List.filter_append]
  by_cases hh : l = u!"hi"
  · refine ⟨[g], ⟨hflat _ (by simp), ?_⟩, by simp, by simpa using hg⟩
    have h1 := ha.2
    have h2 := hb.2
    rw [if_pos hh] at h1 h2 ⊢
    rw [List.append_assoc]
    exact spaceTokens_append h1 h2 hg hne (by rw [ha.1]; exact hae) (by show StartsNS tb.flatten; rw [hb.1]; exact hbs)
  · have h1 := ha.2
    have h2 := hb.2
    rw [if_neg hh] at h1 h2
    have key : ∀ g : PyStr, g ≠ [] → (∀ c ∈ g, isSpace c = true) → ∃ mid : List PyStr, (∀ ta, WordTokens ta → WordTokens (ta ++ mid ++ tb)) ∧
        mid.flatten = g ∧ ∀ t ∈ mid, ∀ c ∈ t, isSpace c = true := by
      intro g
      induction g with
      | nil => intro h; exact absurd rfl h
      | cons c g ih =>
        intro _ hg
        have hc : isWord c = false := by
          cases hw : isWord c with
          | false => rfl
          | true => have := hg c (by simp); rw [word_not_space hw] at this; cases this
        by_cases h0 : g = []
        · subst h0
          refine ⟨[[c]], fun ta h => ?_, rfl, by simpa using hg⟩
          rw [List.append_assoc]; exact wordTokens_append h h2 hc
        · obtain ⟨mid, h3, h4, h5⟩ := ih h0 (fun d hd => hg d (List.mem_cons_of_mem _ hd))
          refine ⟨[c] :: [] :: mid, fun ta h => ?_, by simp [h4], ?_⟩
          · have := wordTokens_append h (h3 [[]] (.last (by simp))) hc
            simpa using this
          · intro t ht
            rcases List.mem_cons.mp ht with rfl | ht
            · intro d hd; rw [List.mem_singleton] at hd; subst hd; exact hg d (by simp)
            · rcases List.mem_cons.mp ht with rfl | ht
              · simp
              · exact h5 t ht
    obtain ⟨mid, h3, h4, h5⟩ := key g hne hg
    exact ⟨mid, ⟨hflat _ h4, by rw [if_neg hh]; exact h3 ta h1⟩, h4, h5⟩

theorem keep_blanks {l : PyStr} {mid tb : List PyStr} {y : PyStr} (hm : ∀ t ∈ mid, ∀ c ∈ t, isSpace c = true) (h : Converted l tb y) :
    Converted l (mid ++ tb) (mid.flatten ++ y) := by
  induction mid with
  | nil => exact h
  | cons t mid ih =>
    rw [List.flatten_cons, List.append_assoc]
    refine .keep (Or.inl ?_) (ih (fun x hx => hm x (List.mem_cons_of_mem _ hx)))
    rw [blankForm_iff]
    exact blank_norm ((blank_spec t).mpr (hm t (by simp)))

theorem dropWhile_endsNS {x : PyStr} (h : EndsNS x) (z : PyStr) :
    (x ++ z).dropWhile isSpace = x.dropWhile isSpace ++ z ∧ EndsNS (x.dropWhile isSpace) := by
  obtain ⟨y, c, rfl, hc⟩ := h
  induction y with
  | nil =>
    have h1 : ¬ isSpace c = true := by simp [hc]
    refine ⟨?_, ?_⟩
    · rw [List.nil_append, List.singleton_append, List.dropWhile_cons_of_neg h1, List.dropWhile_cons_of_neg h1]; rfl
    · rw [List.nil_append, List.dropWhile_cons_of_neg h1]; exact ⟨[], c, rfl, hc⟩
  | cons d y ih =>
    by_cases hd : isSpace d = true
    · rw [List.cons_append, List.cons_append, List.dropWhile_cons_of_pos hd, List.dropWhile_cons_of_pos hd]; exact ih
    · rw [List.cons_append, List.cons_append, List.dropWhile_cons_of_neg hd, List.dropWhile_cons_of_neg hd]
      exact ⟨rfl, d :: y, c, rfl, hc⟩

theorem rdropWhile_startsNS {y : PyStr} (h : StartsNS y) (hne : y ≠ []) (w : PyStr) : rdropWhile isSpace (w ++ y) = w ++ rdropWhile isSpace y := by
  have hr : EndsNS y.reverse := by
    cases y with
    | nil => exact absurd rfl hne
    | cons c y => exact ⟨y.reverse, c, by simp, h c y rfl⟩
  unfold rdropWhile
  rw [List.reverse_append, (dropWhile_endsNS hr _).1, List.reverse_append, List.reverse_reverse]

theorem rdropWhile_endsNS {x : PyStr} (h : EndsNS x) : rdropWhile isSpace x = x := by
  obtain ⟨y, c, rfl, hc⟩ := h
  unfold rdropWhile
  rw [List.reverse_append, List.reverse_singleton, List.singleton_append, List.dropWhile_cons_of_neg (by simp [hc])]
  simp

theorem strip_gap {x g y : PyStr} (hx : EndsNS x) (hy : StartsNS y) (hne : y ≠ []) : strip (x ++ g ++ y) = strip x ++ g ++ strip y := by
  unfold strip
  obtain ⟨h1, h2⟩ := dropWhile_endsNS hx (g ++ y)
  have h3 : y.dropWhile isSpace = y := by
    cases y with
    | nil => rfl
    | cons c y => rw [List.dropWhile_cons_of_neg (by simp [hy c y rfl])]
  rw [List.append_assoc, h1, ← List.append_assoc, rdropWhile_startsNS hy hne, h3, rdropWhile_endsNS h2]

theorem converted_nonempty {l : PyStr} {ts : List PyStr} {x : PyStr} (h : Converted l ts x) (hx : x = []) : ts.flatten = [] := by
  have ne : ∀ {l : PyStr} {is : List RunItem} {xs : List PyStr}, Cut l is xs → withSpaces xs ≠ [] ∧ spaced xs ≠ [] := by
    intro l is xs hc
    constructor
    · cases xs with
      | nil => exact absurd rfl (cut_ne hc)
      | cons y ys => intro e; simp [withSpaces] at e
    · obtain ⟨ys, n, rfl⟩ := cut_last hc
      obtain ⟨y, c, e, _⟩ := endsNS_spaced (xs := ys) (digits_endsNS n)
      rw [e]; simp
  induction h with
  | nil => rfl
  | keep _ _ ih =>
    obtain ⟨e1, e2⟩ := List.append_eq_nil_iff.mp hx
    rw [List.flatten_cons, e1, ih e2]; rfl
  | ending _ hcut => exact absurd hx (ne hcut).1
  | mark _ hcut _ _ _ _ => exact absurd (List.append_eq_nil_iff.mp (List.append_eq_nil_iff.mp hx).1).1 (ne hcut).1
  | markTight _ hcut _ _ _ _ => exact absurd (List.append_eq_nil_iff.mp (List.append_eq_nil_iff.mp hx).1).1 (ne hcut).2
  | word _ _ hcut _ _ _ _ => exact absurd (List.append_eq_nil_iff.mp (List.append_eq_nil_iff.mp hx).1).1 (ne hcut).1
  | conjWord _ hcut _ _ _ _ => simp at hx
  | ordinal _ _ hcut _ _ => exact absurd (List.append_eq_nil_iff.mp hx).1 (ne hcut).2

/-- `parse` of a text that ends closed, a gap of white space and another text. -/
theorem parse_gap {l : PyStr} (hl : l ∈ supported) {a g b x y : PyStr} {ta : List PyStr} (ha : Tokens l a ta) (he : EndsClosed l ta)
    (hg : ∀ c ∈ g, isSpace c = true) (hne : g ≠ [])
    (hae : EndsNS (withoutSoftHyphens a)) (hbs : StartsNS (withoutSoftHyphens b)) (hb0 : withoutSoftHyphens b ≠ [])
    (hx : parse a (some l) = .ok x) (hy : parse b (some l) = .ok y) : parse (a ++ g ++ b) (some l) = .ok (x ++ g ++ y) := by
  have hd := supported_data hl
  obtain ⟨tb, hb⟩ : ∃ tb, Tokens l b tb := ⟨_, (tokens_iff l b _).mpr rfl⟩
  obtain ⟨mid, hm, hmf, hms⟩ := tokens_gap ha hb hg hne hae hbs
  obtain ⟨ra, hra⟩ := converted_exists hl ta
  obtain ⟨rb, hrb⟩ := converted_exists hl tb
  have hr := converted_append hl hra he (keep_blanks hms hrb)
  rw [hmf, ← List.append_assoc, ← List.append_assoc] at hr
  have eb := (tokens_iff l b tb).mp hb
  rw [parse_eq hd, ← (tokens_iff l a ta).mp ha, converted_pieces hl hra] at hx
  rw [parse_eq hd, ← eb, converted_pieces hl hrb] at hy
  rw [parse_eq hd, ← (tokens_iff l _ _).mp hm, converted_pieces hl hr]
  injection hx with hx
  injection hy with hy
  rw [← hx, ← hy]
  congr 1
  have hsb : StartsNS rb := by
    rw [← converted_pieces hl hrb]
    apply pieces_startsNS (languageData_wf hd)
    rw [hb.1]; exact hbs
  apply strip_gap (converted_endsNS hl hra he (by rw [ha.1]; exact hae)) hsb
  intro e
  apply hb0
  rw [← hb.1]; exact converted_nonempty hrb e

end NumberParser
