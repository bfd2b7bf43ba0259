import Verif.Proofs.OpenRun

/-! Conversion of texts with punctuation written directly against words (C77). -/

set_option linter.unusedSimpArgs false

namespace NumberParser
open Spec

set_option maxRecDepth 100000

theorem lastIsNumber_ends {l : PyStr} {ts : List PyStr} (h : LastIsNumber l ts) : EndsNumber l ts := by
  obtain ⟨a, t, rfl, hc⟩ := h
  exact ⟨a, t, [], rfl, hc, by simp⟩

theorem lastIsNumber_solid {l : PyStr} (hl : l ∈ supported) {ts : List PyStr} (h : LastIsNumber l ts) : ¬ EndsBlank ts := by
  obtain ⟨a, t, rfl, hc⟩ := h
  rintro ⟨b, u, e, hb⟩
  obtain ⟨_, e2⟩ := List.append_inj' e rfl
  injection e2 with e2 _
  rw [← e2] at hb
  exact cardinal_not_blank hl hc hb

theorem endsBlank_under {a b : List PyStr} (h : EndsBlank b) : EndsBlank (a ++ b) := by
  obtain ⟨b', t, rfl, ht⟩ := h
  exact ⟨a ++ b', t, by simp, ht⟩

/-- The conversion of a text that ends with a number word, directly followed by a full stop or comma. -/
theorem converted_open_mark {l : PyStr} (hl : l ∈ supported) {a ts : List PyStr} {x u out : PyStr} (ha : Converted l a x) (he : EndsNumber l a)
    (hnb : ¬ EndsBlank a) (hu : Mark u) (ho : Converted l ts out) :
    ∃ z, x = z ++ u!" " ∧ EndsNS z ∧ Converted l (a ++ u :: ts) (z ++ (u ++ out)) := by
  have tail : ∀ {pre ts' : List PyStr}, ¬ EndsBlank (pre ++ ts') → ¬ EndsBlank ts' := fun h h' => h (endsBlank_under h')
  induction ha with
  | nil => obtain ⟨a, t, bl, e, _⟩ := he; simp at e
  | @keep t ts' out' hk _ ih =>
    have hnc : ¬ Cardinal l t := by
      intro hc
      rcases hk with h | h | h | h
      · exact cardinal_not_blank hl hc h
      · exact mark_not_cardinal hl h hc
      · exact cardinal_not_skip hl hc h
      · exact (closing_facts hl (Or.inl h)).1 hc
    obtain ⟨z, rfl, hz, h1⟩ := ih (endsNumber_tail (pre := []) he hnc (Or.inl rfl)) (tail (pre := [t]) hnb)
    refine ⟨t ++ z, by simp, endsNS_append hz, ?_⟩
    rw [List.append_assoc t]
    exact .keep hk h1
  | @ending run is xs hrun hcut =>
    obtain ⟨ys, n, rfl⟩ := cut_last hcut
    refine ⟨_, withSpaces_snoc _ _, endsNS_spaced (digits_endsNS n), ?_⟩
    rw [← List.append_assoc]
    exact .markTight hrun hcut hu hnb ho
  | @mark run is xs t ts' out' hrun hcut hmk hbl _ ih =>
    obtain ⟨z, rfl, hz, h1⟩ := ih (endsNumber_tail he (mark_not_cardinal hl hmk) (Or.inr (mark_not_blank hmk))) (tail (pre := run ++ [t]) (by simpa using hnb))
    refine ⟨withSpaces xs ++ t ++ z, by simp, endsNS_append hz, ?_⟩
    have := Converted.mark hrun hcut hmk hbl h1
    simpa using this
  | @markTight run is xs t ts' out' hrun hcut hmk hbl _ ih =>
    obtain ⟨z, rfl, hz, h1⟩ := ih (endsNumber_tail he (mark_not_cardinal hl hmk) (Or.inr (mark_not_blank hmk))) (tail (pre := run ++ [t]) (by simpa using hnb))
    refine ⟨spaced xs ++ t ++ z, by simp, endsNS_append hz, ?_⟩
    have := Converted.markTight hrun hcut hmk hbl h1
    simpa using this
  | @word run is xs t ts' out' hrun hlast hcut hord hmk _ ih =>
    have hc := closing_facts hl (Or.inl hord)
    obtain ⟨z, rfl, hz, h1⟩ := ih (endsNumber_tail he hc.1 (Or.inr hc.2.2)) (tail (pre := run ++ [t]) (by simpa using hnb))
    refine ⟨withSpaces xs ++ t ++ z, by simp, endsNS_append hz, ?_⟩
    have := Converted.word hrun hlast hcut hord hmk h1
    simpa using this
  | @conjWord run is f xs t ts' out' hrun hcut hord hmk _ ih =>
    have hc := closing_facts hl (Or.inl hord)
    obtain ⟨z, rfl, hz, h1⟩ := ih (endsNumber_tail he hc.1 (Or.inr hc.2.2)) (tail (pre := run ++ [t]) (by simpa using hnb))
    refine ⟨withSpaces xs ++ f ++ u!" " ++ t ++ z, by simp, endsNS_append hz, ?_⟩
    have := Converted.conjWord hrun hcut hord hmk h1
    simpa using this
  | @ordinal run is xs t k v ts' out' hrun hord hcut _ ih =>
    have hc := closing_facts hl (Or.inr ⟨k, v, hord⟩)
    obtain ⟨z, rfl, hz, h1⟩ := ih (endsNumber_tail he hc.1 (Or.inr hc.2.2)) (tail (pre := run ++ [t]) (by simpa using hnb))
    refine ⟨spaced xs ++ z, by simp, endsNS_append hz, ?_⟩
    have := Converted.ordinal hrun hord hcut h1
    simpa using this

/-- The tokens of a text, a character that is not part of words, and another text. -/
theorem tokens_char {l a b : PyStr} {p : Nat} {ta tb : List PyStr} (hhi : l ≠ u!"hi") (hp : isWord p = false) (hs : p ≠ 0xad)
    (ha : Tokens l a ta) (hb : Tokens l b tb) : Tokens l (a ++ p :: b) (ta ++ [p] :: tb) := by
  have h1 := ha.2
  have h2 := hb.2
  rw [if_neg hhi] at h1 h2
  refine ⟨?_, by rw [if_neg hhi]; exact wordTokens_append h1 h2 hp⟩
  rw [List.flatten_append, List.flatten_cons, ha.1, hb.1]
  unfold withoutSoftHyphens
  rw [List.filter_append, List.filter_cons, if_pos (by simpa using hs)]
  rfl

theorem tokens_empty {l : PyStr} : Tokens l [] [[]] := by
  refine ⟨rfl, ?_⟩
  split
  · exact .last (by simp)
  · exact .last (by simp)

theorem strip_startsNS {x y : PyStr} (hx : EndsNS x) (hy : StartsNS y) (hne : y ≠ []) : strip (x ++ y) = strip x ++ strip y := by
  have := strip_gap (g := []) hx hy hne
  simpa using this

theorem strip_space {z : PyStr} (hz : EndsNS z) : strip (z ++ u!" ") = strip z := by
  unfold strip
  rw [(dropWhile_endsNS hz u!" ").1]
  unfold rdropWhile
  simp
  rw [List.dropWhile_cons_of_pos (by decide)]

/-- A text in front of punctuation and more. -/
theorem parse_punct {l : PyStr} (hl : l ∈ supported) (hhi : l ≠ u!"hi") {a b x y : PyStr} {p : Nat} {ta : List PyStr} (ha : Tokens l a ta)
    (hp : isWord p = false) (hsp : isSpace p = false) (hsh : p ≠ 0xad) (hx : parse a (some l) = .ok x) (hy : parse (p :: b) (some l) = .ok y) :
    (LastIsNumber l ta → Ordinary l [p] → ¬ Mark [p] → parse (a ++ p :: b) (some l) = .ok (x ++ u!" " ++ y)) ∧
    (LastIsNumber l ta → Mark [p] → parse (a ++ p :: b) (some l) = .ok (x ++ y)) ∧
    (EndsClosed l ta → SolidEnd a → Mark [p] ∨ Ordinary l [p] ∨ Skip l [p] → parse (a ++ p :: b) (some l) = .ok (x ++ y)) := by
  have hd := supported_data hl
  obtain ⟨tb, htb⟩ : ∃ tb, Tokens l b tb := ⟨_, (tokens_iff l b _).mpr rfl⟩
  have htp : Tokens l (p :: b) ([] :: [p] :: tb) := tokens_char (a := []) hhi hp hsh tokens_empty htb
  have htall := tokens_char hhi hp hsh ha htb
  obtain ⟨ra, hra⟩ := converted_exists hl ta
  obtain ⟨out, hout⟩ := converted_exists hl tb
  rw [parse_eq hd, ← (tokens_iff l a ta).mp ha, converted_pieces hl hra] at hx
  injection hx with hx
  have hns : StartsNS ([p] ++ out) := by
    intro c y e
    injection e with e _
    rw [← e]; exact hsp
  have hne : [p] ++ out ≠ [] := by simp
  have hend : ∀ {r : PyStr}, Converted l (ta ++ [p] :: tb) r → parse (a ++ p :: b) (some l) = .ok (strip r) := by
    intro r hr
    rw [parse_eq hd, ← (tokens_iff l _ _).mp htall, converted_pieces hl hr]
  have hyk : Mark [p] ∨ Ordinary l [p] ∨ Skip l [p] → y = strip ([p] ++ out) := by
    intro hk
    have hk' : BlankForm [p] ∨ Mark [p] ∨ Skip l [p] ∨ Ordinary l [p] := by
      rcases hk with h | h | h
      · exact Or.inr (Or.inl h)
      · exact Or.inr (Or.inr (Or.inr h))
      · exact Or.inr (Or.inr (Or.inl h))
    have h1 : Converted l ([] :: [p] :: tb) ([] ++ ([p] ++ out)) := .keep (Or.inl blankForm_nil) (.keep hk' hout)
    rw [parse_eq hd, ← (tokens_iff l _ _).mp htp, converted_pieces hl h1] at hy
    injection hy with hy
    exact hy.symm
  refine ⟨fun hln ho hm => ?_, fun hln hm => ?_, fun hc hse hk => ?_⟩
  · obtain ⟨hr, z, rfl, hz⟩ := converted_open (mid := []) hl hra (lastIsNumber_ends hln) (by simp) (Or.inr hm) ho hout
    rw [List.append_nil] at hr
    rw [hend hr, ← hx, hyk (Or.inr (Or.inl ho)), strip_space hz, strip_gap hz hns hne]
  · obtain ⟨z, rfl, hz, hr⟩ := converted_open_mark hl hra (lastIsNumber_ends hln) (lastIsNumber_solid hl hln) hm hout
    rw [hend hr, ← hx, hyk (Or.inl hm), strip_space hz, strip_startsNS hz hns hne]
  · have hk' : BlankForm [p] ∨ Mark [p] ∨ Skip l [p] ∨ Ordinary l [p] := by
      rcases hk with h | h | h
      · exact Or.inr (Or.inl h)
      · exact Or.inr (Or.inr (Or.inr h))
      · exact Or.inr (Or.inr (Or.inl h))
    have hr := converted_append hl hra hc (.keep hk' hout)
    rw [hend hr, ← hx, hyk hk, strip_startsNS (converted_endsNS hl hra hc (by rw [ha.1]; exact hse)) hns hne]

/-! ### Which characters are ordinary -/

theorem preserved_nohyphen : preserved (fun c => c != 45) = true := by decide +kernel

theorem norm_nohyphen {t : PyStr} (h : ∀ c ∈ t, c ≠ 45) : ∀ x ∈ norm t, x ≠ 45 := by
  have := norm_preserved (p := fun c => c != 45) preserved_nohyphen (t := t)
    (fun c h1 h2 _ x hx => by have := hangul_decomp h1 h2 hx; simp; omega) (fun c hc => by simpa using h c hc)
  intro x hx; simpa using this x hx

theorem punctuation_ordinary {l : PyStr} (hl : l ∈ supported) {p : Nat} (h : Punctuation l p) : Ordinary l [p] := by
  obtain ⟨hw, hs, hf, _, hh⟩ := h
  have hd := supported_data hl
  have hnw := norm_nonword (t := [p]) (by simpa using hw)
  refine ⟨?_, ?_, ?_⟩
  · cases e : form [p] with
    | nil => exact absurd e hf
    | cons c f => exact ⟨c, by simp, norm_nonspace (t := [p]) (by simpa using hs) c (by show c ∈ form [p]; rw [e]; simp)⟩
  · rw [numberWord_iff hl, nonword_not_number hd (by simpa using hw)]; simp
  · intro hk
    unfold Skip at hk
    simp only [supported, List.mem_cons, List.not_mem_nil, or_false] at hl
    have hword : ∀ {w : PyStr} {c : Nat}, form [p] = w → c ∈ w → isWord c = true → False := by
      intro w c e hc hw'
      have := hnw c (by show c ∈ form [p]; rw [e]; exact hc)
      rw [hw'] at this; cases this
    rcases hl with rfl | rfl | rfl | rfl | rfl
    · rcases List.mem_cons.mp hk with e | hk
      · have := norm_nohyphen (t := [p]) (by simp; intro e; exact hh ⟨rfl, e⟩) 45 (by show 45 ∈ form [p]; rw [e]; simp)
        exact this rfl
      · exact hword (List.mem_singleton.mp hk) (c := 97) (by simp) (by decide +kernel)
    · exact hword (List.mem_singleton.mp hk) (c := 121) (by simp) (by decide +kernel)
    · cases hk
    · cases hk
    · cases hk

theorem mark_char {p : Nat} : Mark [p] ↔ p = 0x2e ∨ p = 0x2c := by
  constructor
  · intro h
    cases Nat.decEq p 0x2e with
    | isTrue h => exact Or.inl h
    | isFalse h1 =>
      cases Nat.decEq p 0x2c with
      | isTrue h => exact Or.inr h
      | isFalse h2 =>
        exfalso
        have := norm_nosep (t := [p]) (by simpa using ⟨h1, h2⟩)
        rcases h with h | h
        · exact (this 0x2e (by show 0x2e ∈ form [p]; rw [h]; simp)).1 rfl
        · exact (this 0x2c (by show 0x2c ∈ form [p]; rw [h]; simp)).2 rfl
  · rintro (rfl | rfl)
    · exact Or.inl (by decide +kernel)
    · exact Or.inr (by decide +kernel)

/-- Punctuation in front of a text. -/
theorem parse_punct_front {l : PyStr} (hl : l ∈ supported) (hhi : l ≠ u!"hi") {b y : PyStr} {p : Nat} (hp : isWord p = false)
    (hsp : isSpace p = false) (hsh : p ≠ 0xad) (ho : Mark [p] ∨ Ordinary l [p] ∨ Skip l [p]) (hb : b = [] ∨ SolidStart b)
    (hy : parse b (some l) = .ok y) : parse (p :: b) (some l) = .ok (p :: y) := by
  have hd := supported_data hl
  obtain ⟨tb, htb⟩ : ∃ tb, Tokens l b tb := ⟨_, (tokens_iff l b _).mpr rfl⟩
  have htp : Tokens l (p :: b) ([] :: [p] :: tb) := tokens_char (a := []) hhi hp hsh tokens_empty htb
  obtain ⟨out, hout⟩ := converted_exists hl tb
  have hk' : BlankForm [p] ∨ Mark [p] ∨ Skip l [p] ∨ Ordinary l [p] := by
    rcases ho with h | h | h
    · exact Or.inr (Or.inl h)
    · exact Or.inr (Or.inr (Or.inr h))
    · exact Or.inr (Or.inr (Or.inl h))
  have h1 : Converted l ([] :: [p] :: tb) ([] ++ ([p] ++ out)) := .keep (Or.inl blankForm_nil) (.keep hk' hout)
  rw [parse_eq hd, ← (tokens_iff l _ _).mp htp, converted_pieces hl h1]
  rw [parse_eq hd, ← (tokens_iff l _ _).mp htb, converted_pieces hl hout] at hy
  injection hy with hy
  rw [← hy]
  congr 1
  have hp1 : EndsNS [p] := ⟨[], p, rfl, hsp⟩
  have hp2 : strip [p] = [p] := by
    unfold strip
    rw [List.dropWhile_cons_of_neg (by simp [hsp])]
    exact rdropWhile_endsNS hp1
  rcases hb with rfl | ⟨c, z, e, hc⟩
  · have e : out = [] := converted_empty hl hout (by rw [htb.1]; rfl)
    subst e
    exact hp2
  · have hns : StartsNS out := by
      rw [← converted_pieces hl hout]
      apply pieces_startsNS (languageData_wf hd)
      rw [htb.1, e]
      intro d w he
      injection he with he _
      rw [← he]; exact hc
    have hne : out ≠ [] := by
      intro h0
      have := converted_nonempty hout h0
      rw [htb.1, e] at this; cases this
    show strip ([p] ++ out) = _
    rw [strip_startsNS hp1 hns hne, hp2]; rfl

end NumberParser
