import Verif.Proofs.VocabularyPunctuation
import Verif.Props.VocabularyPieces

/-!
# C95: punctuation written directly against numbers and words, with any vocabulary

Specification: Verif/Spec/VocabularyPunctuation.lean.  The language must not be called `hi`: there, words are separated by white space only.
-/

set_option maxRecDepth 100000

namespace NumberParser.Props
open NumberParser Gen Spec

/-- A text in front of punctuation and more. -/
theorem punctOf {p : Package} {l : PyStr} {i : Info} (h : Knows p l i) (hhi : l ≠ u!"hi") {a b x y : PyStr} {c : Nat} {ta : List PyStr}
    (ha : Tokens l a ta) (hp : isWord c = false) (hsp : isSpace c = false) (hsh : c ≠ 0xad) (hx : parseIn p a (some l) = .ok x)
    (hy : parseIn p (c :: b) (some l) = .ok y) :
    (LastIsNumberOf i ta → OrdinaryOf i [c] → ¬ Mark [c] → parseIn p (a ++ c :: b) (some l) = .ok (x ++ u!" " ++ y)) ∧
    (LastIsNumberOf i ta → Mark [c] → parseIn p (a ++ c :: b) (some l) = .ok (x ++ y)) ∧
    (EndsClosedOf i ta → SolidEnd a → Mark [c] ∨ OrdinaryOf i [c] ∨ SkipOf i [c] → parseIn p (a ++ c :: b) (some l) = .ok (x ++ y)) := by
  obtain ⟨tb, htb⟩ : ∃ tb, Tokens l b tb := ⟨_, tokens_tokenize l b⟩
  have htp : Tokens l (c :: b) ([] :: [c] :: tb) := tokens_char (a := []) hhi hp hsh tokens_empty htb
  have htall := tokens_char hhi hp hsh ha htb
  obtain ⟨ra, hra, rfl⟩ := (knows_parse h ha).mp hx
  obtain ⟨out, hout⟩ := converted_existsOf h.tidy tb
  have hns : StartsNS ([c] ++ out) := by
    intro d y e
    injection e with e _
    rw [← e]; exact hsp
  have hne : [c] ++ out ≠ [] := by simp
  have hend : ∀ {r : PyStr}, ConvertedOf i (ta ++ [c] :: tb) r → parseIn p (a ++ c :: b) (some l) = .ok (strip r) := fun hr =>
    (knows_parse h htall).mpr ⟨_, hr, rfl⟩
  have hyk : Mark [c] ∨ OrdinaryOf i [c] ∨ SkipOf i [c] → y = strip ([c] ++ out) := by
    intro hk
    have hk' : BlankForm [c] ∨ Mark [c] ∨ SkipOf i [c] ∨ OrdinaryOf i [c] := by
      rcases hk with h | h | h
      · exact Or.inr (Or.inl h)
      · exact Or.inr (Or.inr (Or.inr h))
      · exact Or.inr (Or.inr (Or.inl h))
    have h1 : ConvertedOf i ([] :: [c] :: tb) ([] ++ ([c] ++ out)) := .keep (Or.inl blankForm_nil) (.keep hk' hout)
    rw [(knows_parse h htp).mpr ⟨_, h1, rfl⟩] at hy
    injection hy with hy
    exact hy.symm
  refine ⟨fun hln ho hm => ?_, fun hln hm => ?_, fun hc hse hk => ?_⟩
  · obtain ⟨hr, z, rfl, hz⟩ := converted_openOf (mid := []) h.tidy hra (lastIsNumber_endsOf hln) (by simp) (Or.inr hm) ho hout
    rw [List.append_nil] at hr
    rw [hend hr, hyk (Or.inr (Or.inl ho)), strip_space hz, strip_gap hz hns hne]
  · obtain ⟨z, rfl, hz, hr⟩ := converted_open_markOf h.tidy hra (lastIsNumber_endsOf hln) (lastIsNumber_solidOf h.tidy hln) hm hout
    rw [hend hr, hyk (Or.inl hm), strip_space hz, strip_startsNS hz hns hne]
  · have hk' : BlankForm [c] ∨ Mark [c] ∨ SkipOf i [c] ∨ OrdinaryOf i [c] := by
      rcases hk with h | h | h
      · exact Or.inr (Or.inl h)
      · exact Or.inr (Or.inr (Or.inr h))
      · exact Or.inr (Or.inr (Or.inl h))
    have hr := converted_appendOf h.tidy hra hc (.keep hk' hout)
    rw [hend hr, hyk hk, strip_startsNS (converted_endsNSOf h.tidy hra hc (by rw [ha.1]; exact hse)) hns hne]

/-- **C95** Punctuation directly after a number word gets a space in front of it; the text before it and the rest, with the punctuation,
are converted on their own. -/
theorem c95_after_number (p : Package) (l : PyStr) (i : Info) (h : Knows p l i) (hhi : l ≠ u!"hi") (a b : PyStr) (ta : List PyStr)
    (ht : Tokens l a ta) (hn : LastIsNumberOf i ta) (c : Nat) (hc : PunctuationOf i c) (hm : c ≠ 0x2e ∧ c ≠ 0x2c) (x y : PyStr)
    (hx : parseIn p a (some l) = .ok x) (hy : parseIn p (c :: b) (some l) = .ok y) :
    parseIn p (a ++ c :: b) (some l) = .ok (x ++ u!" " ++ y) := by
  refine (punctOf h hhi ht hc.1 hc.2.1 hc.2.2.1 hx hy).1 hn hc.2.2.2 ?_
  rw [mark_char]
  rintro (e | e)
  · exact hm.1 e
  · exact hm.2 e

/-- **C95** Only a full stop or comma directly after a number word stays attached to the number. -/
theorem c95_mark (p : Package) (l : PyStr) (i : Info) (h : Knows p l i) (hhi : l ≠ u!"hi") (a b : PyStr) (ta : List PyStr)
    (ht : Tokens l a ta) (hn : LastIsNumberOf i ta) (c : Nat) (hc : c = 0x2e ∨ c = 0x2c) (x y : PyStr)
    (hx : parseIn p a (some l) = .ok x) (hy : parseIn p (c :: b) (some l) = .ok y) : parseIn p (a ++ c :: b) (some l) = .ok (x ++ y) := by
  have hf : isWord c = false ∧ isSpace c = false ∧ c ≠ 0xad := by rcases hc with rfl | rfl <;> decide +kernel
  exact (punctOf h hhi ht hf.1 hf.2.1 hf.2.2 hx hy).2.1 hn (mark_char.mpr hc)

/-- **C95** Punctuation, also a conjunction that is a single such character (as the hyphen in English), directly after an ordinary word, a
numeral, other punctuation or an ordinal stays where it is. -/
theorem c95_after_word (p : Package) (l : PyStr) (i : Info) (h : Knows p l i) (hhi : l ≠ u!"hi") (a b : PyStr) (ta : List PyStr)
    (ht : Tokens l a ta) (hn : EndsClosedOf i ta) (ha : SolidEnd a) (c : Nat) (hw : isWord c = false) (hs : isSpace c = false) (hsh : c ≠ 0xad)
    (hc : OrdinaryOf i [c] ∨ SkipOf i [c]) (x y : PyStr) (hx : parseIn p a (some l) = .ok x) (hy : parseIn p (c :: b) (some l) = .ok y) :
    parseIn p (a ++ c :: b) (some l) = .ok (x ++ y) :=
  (punctOf h hhi ht hw hs hsh hx hy).2.2 hn ha (Or.inr hc)

/-- **C95** The same directly in front of a text. -/
theorem c95_in_front (p : Package) (l : PyStr) (i : Info) (h : Knows p l i) (hhi : l ≠ u!"hi") (c : Nat) (hw : isWord c = false)
    (hs : isSpace c = false) (hsh : c ≠ 0xad) (hc : OrdinaryOf i [c] ∨ SkipOf i [c]) (b y : PyStr) (hb : b = [] ∨ SolidStart b)
    (hy : parseIn p b (some l) = .ok y) : parseIn p (c :: b) (some l) = .ok (c :: y) := by
  obtain ⟨tb, htb⟩ : ∃ tb, Tokens l b tb := ⟨_, tokens_tokenize l b⟩
  have htp : Tokens l (c :: b) ([] :: [c] :: tb) := tokens_char (a := []) hhi hw hsh tokens_empty htb
  obtain ⟨out, hout, rfl⟩ := (knows_parse h htb).mp hy
  have hk' : BlankForm [c] ∨ Mark [c] ∨ SkipOf i [c] ∨ OrdinaryOf i [c] := Or.inr (Or.inr hc.symm)
  have h1 : ConvertedOf i ([] :: [c] :: tb) ([] ++ ([c] ++ out)) := .keep (Or.inl blankForm_nil) (.keep hk' hout)
  rw [(knows_parse h htp).mpr ⟨_, h1, rfl⟩]
  congr 1
  have hp1 : EndsNS [c] := ⟨[], c, rfl, hs⟩
  have hp2 : strip [c] = [c] := by
    unfold strip
    rw [List.dropWhile_cons_of_neg (by simp [hs])]
    exact rdropWhile_endsNS hp1
  rcases hb with rfl | hb
  · have e : out = [] := converted_emptyOf h.tidy hout (by rw [htb.1]; rfl)
    subst e
    exact hp2
  · obtain ⟨hb1, hb2⟩ := solid_startsNS hb
    have hns : StartsNS out := converted_startsNSOf hout (by rw [htb.1]; exact hb1)
    have hne : out ≠ [] := by
      intro h0
      have := converted_nonemptyOf hout h0
      rw [htb.1] at this; exact hb2 this
    show strip ([c] ++ out) = _
    rw [strip_startsNS hp1 hns hne, hp2]; rfl

/-- **C95** A number between punctuation marks, for instance in brackets or quotation marks. -/
theorem c95_enclosed (p : Package) (l : PyStr) (i : Info) (h : Knows p l i) (hhi : l ≠ u!"hi") (m w : PyStr) (ts : List PyStr)
    (ht : Tokens l m (w :: ts)) (hw : CardinalOf i w) (hlast : LastIsNumberOf i (w :: ts)) (hap : 0x27 ∉ m ∧ 0x2019 ∉ m) (hs : SolidStart m)
    (hm : WordInput m) (n : Nat) (hn : parseNumberIn p m (some l) = .ok (some n)) (c d : Nat) (hc : PunctuationOf i c) (hd : PunctuationOf i d) :
    parseIn p (c :: m ++ [d]) (some l) = .ok (c :: decDigits n ++ (if d = 0x2e ∨ d = 0x2c then [] else u!" ") ++ [d]) := by
  have hp := c92_whole p l i h m w ts ht hw hap hm n hn
  have hd1 := c95_in_front p l i h hhi d hd.1 hd.2.1 hd.2.2.1 (Or.inl hd.2.2.2) [] [] (Or.inl rfl) (by
    obtain ⟨out, hout⟩ := converted_existsOf h.tidy [[]]
    have e := converted_emptyOf h.tidy hout rfl
    subst e
    exact (knows_parse h tokens_empty).mpr ⟨_, hout, rfl⟩)
  have h3 : parseIn p (m ++ [d]) (some l) = .ok (decDigits n ++ (if d = 0x2e ∨ d = 0x2c then [] else u!" ") ++ [d]) := by
    split
    · rename_i hq
      rw [List.append_nil]
      exact c95_mark p l i h hhi m [] _ ht hlast d hq _ _ hp hd1
    · rename_i hq
      exact c95_after_number p l i h hhi m [] _ ht hlast d hd ⟨fun e => hq (Or.inl e), fun e => hq (Or.inr e)⟩ _ _ hp hd1
  have := c95_in_front p l i h hhi c hc.1 hc.2.1 hc.2.2.1 (Or.inl hc.2.2.2) (m ++ [d]) _ (Or.inr (by
    obtain ⟨c, z, e, hc⟩ := hs
    refine ⟨c, z ++ withoutSoftHyphens [d], ?_, hc⟩
    unfold withoutSoftHyphens at *
    rw [List.filter_append, e]; rfl)) h3
  simpa using this

/-- **C95** Which characters are punctuation: if every number word of the module contains a letter or digit (a word character), then every
character is that is neither a word character nor white space, nor an accent, nor a soft hyphen, unless the module has it as a
conjunction. -/
theorem c95_punctuation (i : Info) (ht : Tidy i) (hi : ∀ f, Listed i f → ∃ c ∈ f, isWord c = true) (p : Nat) (hw : isWord p = false) (hs : isSpace p = false)
    (hf : form [p] ≠ []) (hsh : p ≠ 0xad) (hk : form [p] ∉ i.skipTokens) : PunctuationOf i p := by
  have hnw := norm_nonword (t := [p]) (by simpa using hw)
  have hword : ∀ {c : Nat}, c ∈ form [p] → isWord c = true → False := by
    intro c hc hw'
    have := hnw c hc
    rw [hw'] at this; cases this
  have hlist : ¬ Listed i (form [p]) := by
    intro h
    obtain ⟨c, hc, hw'⟩ := hi _ h
    exact hword hc hw'
  refine ⟨hw, hs, hsh, ?_, hlist, ?_, hk⟩
  · cases e : form [p] with
    | nil => exact absurd e hf
    | cons c f => exact ⟨c, by simp, norm_nonspace (t := [p]) (by simpa using hs) c (by show c ∈ form [p]; rw [e]; simp)⟩
  · rintro ⟨k, v, _, c, hc, hst⟩
    have h1 := (numberTokenOf_iff ht).mpr hst
    unfold isNumberToken at h1
    rw [conv_noletters _ (fun c hc => by
      cases ha : isAz c with
      | false => rfl
      | true => exact absurd (az_word ha) (fun hw' => hword hc hw'))] at h1
    unfold isCardinalToken at h1
    rw [if_neg (fun hm => hlist (mem_listed.mp hm))] at h1
    cases h1

/-! ## Which data modules -/

theorem worded {i : Info} (h : (allForms i).all (fun f => f.any isWord) = true) : ∀ f, Listed i f → ∃ c ∈ f, isWord c = true := by
  intro f hf
  have := List.all_eq_true.mp h f (listed_forms.mp hf)
  exact List.any_eq_true.mp this

/-- **C95** Every number word contains a word character, in the languages of the repository ... -/
theorem c95_supported : ∀ l ∈ supported, ∀ f, Listed (file l) f → ∃ c ∈ f, isWord c = true := by
  intro l hl
  apply worded
  revert hl; revert l
  decide +kernel

/-- **C95** ... and in the others for which the repository has a data module. -/
theorem c95_shipped : ∀ e ∈ otherLanguages, ∀ long f, Listed (tablesOf e.2.2.2 long) f → ∃ c ∈ f, isWord c = true := by
  have key : ∀ e ∈ otherLanguages, (allForms (tablesOf e.2.2.2 true)).all (fun f => f.any isWord) = true ∧
      (allForms (tablesOf e.2.2.2 false)).all (fun f => f.any isWord) = true := by decide +kernel
  intro e he long
  apply worded
  cases long
  · exact (key e he).2
  · exact (key e he).1

/-! ## An example -/

/-- A Portuguese number in brackets, and before a colon -/
theorem c95_example : parseIn [(u!"xx", ordinalVocabulary), (u!"pt", portuguese)] u!"(vinte três)" (some u!"pt") = .ok u!"(23 )" ∧
    parseIn [(u!"xx", ordinalVocabulary), (u!"pt", portuguese)] u!"vinte três: livros" (some u!"pt") = .ok u!"23 : livros" := by
  have hm : ∀ t ∈ [u!"vinte", u!"três"], CardinalOf portuguese t := by
    intro t ht
    apply mem_listed.mp
    revert ht; revert t; decide +kernel
  have hw := worded (i := portuguese) (by decide +kernel)
  have hp : ∀ c ∈ [0x28, 0x29, 0x3a], PunctuationOf portuguese c := by
    intro c hc
    have k : ∀ c ∈ [0x28, 0x29, 0x3a], isWord c = false ∧ isSpace c = false ∧ form [c] ≠ [] ∧ c ≠ 0xad ∧ form [c] ∉ portuguese.skipTokens := by
      decide +kernel
    obtain ⟨h1, h2, h3, h4, h5⟩ := k c hc
    exact c95_punctuation portuguese tidy_portuguese.1 hw c h1 h2 h3 h4 h5
  have ht : Tokens u!"pt" u!"vinte três" [u!"vinte", u!" ", u!"três"] := (tokens_iff _ _ _).mpr (by decide +kernel)
  have hl : LastIsNumberOf portuguese [u!"vinte", u!" ", u!"três"] := ⟨[u!"vinte", u!" "], u!"três", rfl, hm _ (by simp)⟩
  constructor
  · exact c95_enclosed _ u!"pt" portuguese known_example.2 (by decide) u!"vinte três" u!"vinte" [u!" ", u!"três"] ht (hm _ (by simp)) hl (by decide)
      ⟨118, u!"inte três", by decide +kernel, by decide⟩ ((wordInput_iff _).mpr (by decide +kernel)) 23 (by decide +kernel) 0x28 0x29
      (hp _ (by simp)) (hp _ (by simp))
  · exact c95_after_number _ u!"pt" portuguese known_example.2 (by decide) u!"vinte três" u!" livros" _ ht hl 0x3a (hp _ (by simp)) (by decide)
      u!"23" u!": livros" (by decide +kernel) (by decide +kernel)

end NumberParser.Props
