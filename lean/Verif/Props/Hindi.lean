import Verif.Props.Conversion
import Verif.Props.Sentences
import Verif.Props.Text
import Verif.Props.Fractions

/-!
# C10, C17, C45 for Hindi

Hindi texts are split at white space only, so that punctuation has to stand apart.
-/

namespace NumberParser.Props
open NumberParser NumberParser.Spec

/-! ## Tokens of Hindi texts -/

theorem spaceTokens_last {ts : List PyStr} (h : SpaceTokens ts) (he : EndsNS ts.flatten) :
    ∃ a t, ts = a ++ [t] ∧ t ≠ [] ∧ ∀ c ∈ t, isSpace c = false := by
  induction h with
  | @last w hw =>
    refine ⟨[], w, rfl, ?_, hw⟩
    rintro rfl
    obtain ⟨y, c, e, _⟩ := he
    simp at e
  | @cons w g w' ts hw hne hg _ _ ih =>
    have : EndsNS (w' :: ts).flatten := by
      by_cases hf : (w' :: ts).flatten = []
      · exfalso
        obtain ⟨y, c, e, hc⟩ := he
        rw [List.flatten_cons, List.flatten_cons, hf, List.append_nil] at e
        rcases List.eq_nil_or_concat g with rfl | ⟨g', d, rfl⟩
        · exact hne rfl
        · rw [List.concat_eq_append, ← List.append_assoc] at e
          obtain ⟨_, e2⟩ := List.append_inj' e rfl
          injection e2 with e2 _
          have := hg d (by simp)
          rw [e2, hc] at this; cases this
      · apply endsNS_tail (a := w ++ g) _ hf
        simpa using he
    obtain ⟨a, t, e, h1, h2⟩ := ih this
    exact ⟨w :: g :: a, t, by rw [e]; simp, h1, h2⟩

theorem hi_noSkip (t : PyStr) : ¬ Skip u!"hi" t := by
  intro h
  have : (file u!"hi").skipTokens = [] := rfl
  unfold Skip at h
  rw [this] at h; cases h

/-- What is known of a spelled Hindi number. -/
theorem hindi_number {n : Nat} {t : PyStr} (h : Spells hindi n t) :
    (∃ ts, Tokens u!"hi" t ts ∧ EndsNumber u!"hi" ts) ∧ parse t (some u!"hi") = .ok (decDigits n) ∧ SolidStart t ∧ SolidEnd t ∧
      0xad ∉ t := by
  obtain ⟨h1, ⟨ws, hws, h2⟩, h3⟩ := h
  have hl : u!"hi" ∈ supported := by decide
  have hst := style_hi
  have hkk : wordKinds (mkLangData (file u!"hi")) ws = wordKinds (mkLangData (file u!"hi")) (hiWords n) ∧
      ∀ w ∈ ws, (mkLangData (file u!"hi")).allNumbers.mem (norm w) = true := form_kinds (L := hindi) hl hws
  have hk := hkk.2
  have hv : kindsValue 100 (wordKinds (mkLangData (file u!"hi")) ws) = some n := by rw [hkk.1]; exact (hi_words h1).1
  have hf := Text.frag hst h2 hk
  obtain ⟨w, v, ws', e, hwv, hhd, _⟩ := Text.head hst h2
  have hkv : (mkLangData Data.hi).allNumbers.mem (norm v) = true := by
    have e2 : norm v = norm w := hwv.2
    rw [e2]; exact hk w (by rw [e]; simp)
  have hne : v ≠ [] := by rintro rfl; revert hkv; decide +kernel
  have hshy : 0xad ∉ t := fun hc => by have := hf.plain _ hc; revert this; decide
  have hns : withoutSoftHyphens t = t := by
    apply List.filter_eq_self.mpr
    intro c hc; simp only [bne_iff_ne, ne_eq]; rintro rfl; exact hshy hc
  have hap : 0x27 ∉ t ∧ 0x2019 ∉ t := by
    constructor
    · intro hc; have := hf.plain _ hc; revert this; decide
    · intro hc; have := hf.plain _ hc; revert this; decide
  have htok := tokens_tokenize u!"hi" t
  have hsplit : tokenize t u!"hi" = v :: (split u!"hi" t).tail := by
    rw [tokenize_eq, show noShy t = t from hns, ← hhd]; exact split_cons _ _
  have hcard : ∀ x ∈ tokenize t u!"hi", blank x = false → Cardinal u!"hi" x := by
    intro x hx hb
    rw [cardinal_iff hl]
    rw [tokenize_eq, show noShy t = t from hns] at hx
    have := hf.ok (norm x) (List.mem_map.mpr ⟨x, List.mem_filter.mpr ⟨hx, by rw [hb]; rfl⟩, rfl⟩)
    unfold numOrSkip at this
    rw [Bool.or_eq_true] at this
    rcases this with h | h
    · exact h
    · exact absurd h (by show ¬ (mkLangData (file u!"hi")).skipTokens.elem (norm x) = true; exact fun hh => by cases hh)
  have hend : EndsNS t := by
    rcases List.eq_nil_or_concat t with rfl | ⟨y, c, rfl⟩
    · exfalso
      rw [show tokenize [] u!"hi" = [[]] from rfl] at hsplit
      injection hsplit with e1 _
      exact hne e1.symm
    · exact ⟨y, c, by simp, h3 c y (by simp)⟩
  have hsp : SpaceTokens (tokenize t u!"hi") := by have := htok.2; rwa [if_pos rfl] at this
  obtain ⟨a, x, e1, e2, e3⟩ := spaceTokens_last hsp (by rw [htok.1, hns]; exact hend)
  have hxb : blank x = false := by
    cases hb : blank x with
    | false => rfl
    | true =>
      cases x with
      | nil => exact absurd rfl e2
      | cons c x => have := (blank_spec _).mp hb c (by simp); rw [e3 c (by simp)] at this; cases this
  refine ⟨⟨_, htok, a, x, [], e1, hcard x (by rw [e1]; simp) hxb, by simp⟩, ?_, ?_, ?_, hshy⟩
  · refine c18_parse_agrees u!"hi" hl t [] (split u!"hi" t).tail v (by rw [List.nil_append, ← hsplit]; exact htok) (by simp)
      ((cardinal_iff hl v).mpr hkv) hap n ?_
    have hr : Rendering Spec.hi ws t := ⟨[], t, by simp, h2, rfl⟩
    rw [parseNumber_rendering hst hr hk]
    exact congrArg Except.ok hv
  · have hfl := htok.1
    rw [hsplit, hns] at hfl
    cases v with
    | nil => exact absurd rfl hne
    | cons c v =>
      refine ⟨c, v ++ (split u!"hi" t).tail.flatten, by rw [hns]; exact hfl.symm, ?_⟩
      have := hst.word c (hwv.1 c (by simp))
      cases hc : isSpace c with
      | false => rfl
      | true =>
        have h5 := this.1
        rw [sepChar_of_space _ hc] at h5; cases h5
  · obtain ⟨y, c, e, hc⟩ := hend
    exact ⟨y, c, by rw [hns, e], hc⟩

theorem hindi_plain {t : PyStr} (h : Part.OK hindi (.plain t)) :
    (∀ ts, Tokens u!"hi" t ts → EndsClosed u!"hi" ts) ∧ parse t (some u!"hi") = .ok t ∧ SolidStart t ∧ SolidEnd t := by
  obtain ⟨h1, h2, h3, h4, h5⟩ := h
  have hns : withoutSoftHyphens t = t := by
    apply List.filter_eq_self.mpr
    intro c hc; simp only [bne_iff_ne, ne_eq]; rintro rfl; exact h4 hc
  have hend : EndsNS t := by
    rcases List.eq_nil_or_concat t with rfl | ⟨y, c, rfl⟩
    · exact absurd rfl h1
    · exact ⟨y, c, by simp, h3 c y (by simp)⟩
  refine ⟨?_, ?_, ?_, ?_⟩
  · intro ts hts
    have h5 := h5 ts hts
    clear hts
    have key : ∀ (ts : List PyStr), (∀ w ∈ ts, ¬ NumberWord u!"hi" w) → EndsClosed u!"hi" ts := by
      intro ts
      induction ts with
      | nil => intro _; exact Or.inl (by simp)
      | cons x ts ih =>
        intro h
        rcases ih (fun w hw => h w (by simp [hw])) with hb | ⟨a, y, bl, rfl, hc, hb⟩
        · by_cases hx : BlankForm x
          · left; intro y hy
            rcases List.mem_cons.mp hy with rfl | hy
            · exact hx
            · exact hb y hy
          · right
            refine ⟨[], x, ts, rfl, Or.inl ⟨?_, h x (by simp), hi_noSkip x⟩, hb⟩
            apply Classical.byContradiction
            intro hno
            apply hx
            intro c hc
            cases hs : isSpace c with
            | true => rfl
            | false => exact absurd ⟨c, hc, hs⟩ hno
        · exact Or.inr ⟨x :: a, y, bl, rfl, hc, hb⟩
    exact key ts h5
  · rw [c14_plain_text_unchanged u!"hi" (by decide) t _ (tokens_tokenize _ _) (h5 _ (tokens_tokenize _ _)), hns, strip_id h2]
    intro c cs e; exact h3 c cs e
  · cases t with
    | nil => exact absurd rfl h1
    | cons c t => exact ⟨c, t, hns, h2 c t rfl⟩
  · obtain ⟨y, c, e, hc⟩ := hend
    exact ⟨y, c, by rw [hns, e], hc⟩

/-! ## C45 -/

/-- **C45** for Hindi: in a sentence of plain text and spelled numbers below 10^13 separated by single spaces, where a number
is followed by ordinary text, every spelled number is replaced by its decimal digits and the rest is kept. -/
theorem c45_hindi (ps : List Part) (h : Sentence hindi ps) (hno : ∀ n t mark, Part.ended n t mark ∉ ps) :
    parse (spaced (ps.map Part.text)) (some u!"hi") = .ok (spaced (ps.map Part.result)) := by
  have hl : u!"hi" ∈ supported := by decide
  have hsp : WhiteSpace u!" " := ⟨by simp, by decide⟩
  by_cases hne : ps = []
  · subst hne; decide +kernel
  suffices key : parse (spaced (ps.map Part.text)) (some u!"hi") = .ok (spaced (ps.map Part.result)) ∧ SolidStart (spaced (ps.map Part.text)) from key.1
  induction ps with
  | nil => exact absurd rfl hne
  | cons p ps ih =>
    have hp : p.OK hindi := Sentence.ok h p List.mem_cons_self
    cases ps with
    | nil =>
      cases p with
      | plain t => obtain ⟨_, h2, h3, _⟩ := hindi_plain hp; exact ⟨h2, h3⟩
      | number n t => obtain ⟨_, h2, h3, _⟩ := hindi_number hp; exact ⟨h2, h3⟩
      | ended n t m => exact absurd List.mem_cons_self (hno n t m)
    | cons p' ps =>
      obtain ⟨_, hfol, hrest⟩ := h
      obtain ⟨i1, i2⟩ := ih hrest (fun n t m hm => hno n t m (List.mem_cons_of_mem _ hm)) (by simp)
      have e1 : spaced ((p :: p' :: ps).map Part.text) = p.text ++ u!" " ++ spaced ((p' :: ps).map Part.text) := by
        rw [List.map_cons, spaced_cons _ (by simp)]; simp
      have e2 : spaced ((p :: p' :: ps).map Part.result) = p.result ++ u!" " ++ spaced ((p' :: ps).map Part.result) := by
        rw [List.map_cons, spaced_cons _ (by simp)]; simp
      rw [e1, e2]
      have start : ∀ {x y : PyStr}, SolidStart x → SolidStart (x ++ u!" " ++ y) := by
        rintro x y ⟨c, z, e, hc⟩
        refine ⟨c, z ++ withoutSoftHyphens (u!" " ++ y), ?_, hc⟩
        unfold withoutSoftHyphens at e ⊢
        rw [List.append_assoc, List.filter_append, e]; rfl
      cases p with
      | plain t =>
        obtain ⟨h1, h2, h3, h4⟩ := hindi_plain hp
        exact ⟨c58_pieces u!"hi" hl t u!" " _ _ (tokens_tokenize _ _) (h1 _ (tokens_tokenize _ _)) h4 hsp i2 _ _ h2 i1, start h3⟩
      | number n t =>
        obtain ⟨⟨ts, t1, t2⟩, h2, h3, h4, _⟩ := hindi_number hp
        refine ⟨?_, start h3⟩
        obtain ⟨tb, htb, hob⟩ : ∃ tb, Tokens u!"hi" (spaced ((p' :: ps).map Part.text)) tb ∧ BeginsOrdinary u!"hi" tb := by
          cases p' with
          | number _ _ => exact absurd hfol (by simp [Part.mayFollow])
          | ended _ _ _ => exact absurd hfol (by simp [Part.mayFollow])
          | plain t' =>
            have hp' : Part.OK hindi (.plain t') := Sentence.ok hrest _ List.mem_cons_self
            obtain ⟨w, rest, ho, ht'⟩ : StartsOrdinary u!"hi" t' := hfol
            obtain ⟨tt, ht, hb⟩ : ∃ tt, Tokens u!"hi" t' tt ∧ BeginsOrdinary u!"hi" tt := by
              rcases ht' with ht' | ht'
              · exact ⟨_, ht', [], w, rest, rfl, by simp, ho⟩
              · exact ⟨_, ht', [[]], w, rest, rfl, by simp, ho⟩
            cases ps with
            | nil => exact ⟨tt, ht, hb⟩
            | cons p'' ps =>
              obtain ⟨_, _, h4', h5'⟩ := hindi_plain hp'
              have i3 : SolidStart (spaced ((p'' :: ps).map Part.text)) := by
                have hp'' : p''.OK hindi := Sentence.ok hrest _ (by simp)
                have : SolidStart p''.text := by
                  cases p'' with
                  | plain t => exact (hindi_plain hp'').2.2.1
                  | number n t => exact (hindi_number hp'').2.2.1
                  | ended n t m => exact absurd (by simp) (hno n t m)
                cases ps with
                | nil => exact this
                | cons q qs =>
                  rw [List.map_cons, spaced_cons _ (by simp)]
                  have := start (y := spaced ((q :: qs).map Part.text)) this
                  simpa using this
              obtain ⟨mid, hm, _, _⟩ := tokens_gap ht (tokens_tokenize u!"hi" (spaced ((p'' :: ps).map Part.text))) hsp.2 hsp.1 h5' (by
                obtain ⟨c, y, e, hc⟩ := i3
                intro d w he; rw [e] at he; injection he with h1 h2; rw [← h1]; exact hc)
              refine ⟨tt ++ mid ++ tokenize (spaced ((p'' :: ps).map Part.text)) u!"hi", ?_, ?_⟩
              · rw [List.map_cons, spaced_cons _ (by simp)]
                have e3 : Part.text (.plain t') ++ 32 :: spaced (List.map Part.text (p'' :: ps)) = t' ++ u!" " ++ spaced (List.map Part.text (p'' :: ps)) := by
                  simp [Part.text]
                rw [e3]; exact hm
              · obtain ⟨e, w, r, rfl, h6, h7⟩ := hb
                exact ⟨e, w, r ++ mid ++ tokenize (spaced ((p'' :: ps).map Part.text)) u!"hi", by simp, h6, h7⟩
        exact c58_number u!"hi" hl t u!" " _ ts tb t1 t2 h4 hsp htb hob i2 _ _ h2 i1
      | ended n t m => exact absurd List.mem_cons_self (hno n t m)

theorem spells_hiText (n : Nat) (h : n < 10 ^ 13) : Spells hindi n (hiText n) :=
  ⟨h, ⟨_, form_of (by decide) (AllNum.mem wf_hi (hi_words h).2) (AllNum.mem wf_hi (hi_words h).2) rfl,
      phrase_text (fun _ _ => gap_space (by decide)) (hi_chars n) (hiWords_ne_nil h)⟩,
    phrase_ends (p := hindiWordChar) (fun c hc => by
      have := style_hi.word c hc
      cases hs : isSpace c with
      | false => rfl
      | true => have h5 := this.1; rw [sepChar_of_space _ hs] at h5; cases h5) (hi_chars n) (allNum_ne wf_hi (hi_words h).2)⟩

/-- Plain Hindi text, by evaluation. -/
theorem hindi_plain_ok {t : PyStr} (h0 : t ≠ []) (h1 : t.all (fun c => c != 0xad) = true) (h2 : ∀ c, t.head? = some c → isSpace c = false)
    (h3 : ∀ c, t.getLast? = some c → isSpace c = false)
    (h4 : (tokenize t u!"hi").all (fun w => (isNumberToken (norm w) (mkLangData (file u!"hi"))).isNone) = true) : Part.OK hindi (.plain t) := by
  refine ⟨h0, fun c rest e => h2 c (by rw [e]; rfl), fun c rest e => h3 c (by rw [e]; simp), ?_, ?_⟩
  · intro hm; have := List.all_eq_true.mp h1 _ hm; simp at this
  · intro ts hts w hw hn
    rw [tokens_iff] at hts; subst hts
    have h5 := List.all_eq_true.mp h4 w hw
    have h6 := (numberWord_iff (l := u!"hi") (by decide) w).mp hn
    rw [Option.isNone_iff_eq_none] at h5
    rw [h5] at h6; cases h6

/-- A sentence that meets the hypothesis, for every number ("I am n years old"). -/
example (n : Nat) (hn : n < 10 ^ 13) :
    parse (u!"मैं " ++ hiText n ++ u!" साल का हूँ") (some u!"hi") = .ok (u!"मैं " ++ decDigits n ++ u!" साल का हूँ") := by
  have ho : StartsOrdinary u!"hi" u!"साल का हूँ" := by
    refine ⟨u!"साल", [u!" ", u!"का", u!" ", u!"हूँ"], ⟨⟨2360, by decide +kernel, by decide⟩, ?_, hi_noSkip _⟩,
      Or.inl ((tokens_iff _ _ _).mpr (by decide +kernel))⟩
    rw [numberWord_iff (by decide)]; decide +kernel
  have := c45_hindi [.plain u!"मैं", .number n (hiText n), .plain u!"साल का हूँ"]
    ⟨hindi_plain_ok (by decide) (by decide) (by decide) (by decide) (by decide +kernel), trivial, spells_hiText n hn, ho,
      hindi_plain_ok (by decide) (by decide) (by decide) (by decide) (by decide +kernel)⟩ (by simp)
  simpa [spaced, Part.text, Part.result] using this

/-! ## C10, C17 -/

/-- Neither lists nor sentences with punctuation attached to the number words are converted in Hindi, so that C10 and C17 are
false for it. -/
theorem c10_hindi_refuted : parse u!"दो, तीन" (some u!"hi") = .ok u!"दो, 3" ∧ parse u!"दो" (some u!"hi") = .ok u!"2" ∧
    parse u!"दो." (some u!"hi") = .ok u!"दो." ∧ parse u!"दो.तीन" (some u!"hi") = .ok u!"दो.तीन" := by decide +kernel

/-- **C10** for Hindi: lists with punctuation that stands apart are converted element by element. -/
theorem c10_hindi (mark : Nat) (hm : mark = 0x2c ∨ mark = 0x2e) (items : List (Nat × PyStr)) (h : ∀ x ∈ items, Spells hindi x.1 x.2) :
    parse (listedApart mark (items.map (fun x => x.2))) (some u!"hi") = .ok (listedApart mark (items.map (fun x => decDigits x.1))) := by
  have hok : Part.OK hindi (.plain [mark]) ∧ StartsOrdinary u!"hi" [mark] := by
    rcases hm with rfl | rfl
    · refine ⟨hindi_plain_ok (by decide) (by decide) (by decide) (by decide) (by decide +kernel),
        [0x2c], [], ⟨⟨0x2c, by decide +kernel, by decide⟩, ?_, hi_noSkip _⟩, Or.inl ((tokens_iff _ _ _).mpr (by decide +kernel))⟩
      rw [numberWord_iff (by decide)]; decide +kernel
    · refine ⟨hindi_plain_ok (by decide) (by decide) (by decide) (by decide) (by decide +kernel),
        [0x2e], [], ⟨⟨0x2e, by decide +kernel, by decide⟩, ?_, hi_noSkip _⟩, Or.inl ((tokens_iff _ _ _).mpr (by decide +kernel))⟩
      rw [numberWord_iff (by decide)]; decide +kernel
  have build : ∀ items : List (Nat × PyStr), (∀ x ∈ items, Spells hindi x.1 x.2) → ∃ ps, Sentence hindi ps ∧ (∀ n t k, Part.ended n t k ∉ ps) ∧
      (∀ x rest, items = x :: rest → ∃ qs, ps = .number x.1 x.2 :: qs) ∧ (items = [] → ps = []) ∧
      spaced (ps.map Part.text) = listedApart mark (items.map (fun x => x.2)) ∧
      spaced (ps.map Part.result) = listedApart mark (items.map (fun x => decDigits x.1)) := by
    intro items
    induction items with
    | nil => intro _; exact ⟨[], trivial, by simp, by simp, by simp, rfl, rfl⟩
    | cons x items ih =>
      intro h
      have hx := h x (by simp)
      cases items with
      | nil => exact ⟨[.number x.1 x.2], hx, by simp, fun y rest e => ⟨[], by cases e; rfl⟩, by simp, rfl, rfl⟩
      | cons y items =>
        obtain ⟨ps, h1, h2, h3, _, h5, h6⟩ := ih (fun z hz => h z (by simp [hz]))
        obtain ⟨qs, rfl⟩ := h3 y items rfl
        refine ⟨.number x.1 x.2 :: .plain [mark] :: .number y.1 y.2 :: qs, ⟨hx, hok.2, hok.1, trivial, h1⟩, ?_,
          fun z rest e => ⟨_, by cases e; rfl⟩, by simp, ?_, ?_⟩
        · intro n t k hk
          simp only [List.mem_cons, reduceCtorEq, false_or] at hk
          exact h2 n t k (by simp [hk])
        · rw [List.map_cons, spaced_cons _ (by simp), List.map_cons, spaced_cons _ (by simp), h5]
          simp [listedApart, Part.text]
        · rw [List.map_cons, spaced_cons _ (by simp), List.map_cons, spaced_cons _ (by simp), h6]
          simp [listedApart, Part.result]
  obtain ⟨ps, h1, h2, _, _, h5, h6⟩ := build items h
  rw [← h5, ← h6]
  exact c45_hindi ps h1 h2

example : listedApart 0x2c ([21, 100].map hiText) = u!"इक्कीस , एक सौ" ∧ listedApart 0x2c ([21, 100].map decDigits) = u!"21 , 100" := by decide +kernel

/-- **C17** for Hindi: after a full stop or comma that stands apart, the text is converted on its own. -/
theorem c17_hindi (a g g' b : PyStr) (mark : Nat) (hm : mark = 0x2e ∨ mark = 0x2c) (ha : SolidEnd a) (hg : WhiteSpace g) (hg' : WhiteSpace g')
    (hb : SolidStart b) :
    ∃ x y, parse (a ++ g ++ [mark]) (some u!"hi") = .ok x ∧ parse b (some u!"hi") = .ok y ∧
      parse (a ++ g ++ [mark] ++ g' ++ b) (some u!"hi") = .ok (x ++ g' ++ y) := by
  have hl : u!"hi" ∈ supported := by decide
  have hd := supported_data hl
  refine ⟨_, _, parse_eq hd _, parse_eq hd _, ?_⟩
  have hmark : SolidStart [mark] ∧ SolidEnd [mark] ∧ Tokens u!"hi" [mark] [[mark]] ∧ Ordinary u!"hi" [mark] := by
    rcases hm with rfl | rfl
    · refine ⟨⟨0x2e, [], by decide, by decide⟩, ⟨[], 0x2e, by decide, by decide⟩, (tokens_iff _ _ _).mpr (by decide +kernel),
        ⟨0x2e, by decide +kernel, by decide⟩, ?_, hi_noSkip _⟩
      rw [numberWord_iff (by decide)]; decide +kernel
    · refine ⟨⟨0x2c, [], by decide, by decide⟩, ⟨[], 0x2c, by decide, by decide⟩, (tokens_iff _ _ _).mpr (by decide +kernel),
        ⟨0x2c, by decide +kernel, by decide⟩, ?_, hi_noSkip _⟩
      rw [numberWord_iff (by decide)]; decide +kernel
  obtain ⟨m1, m2, m3, m4⟩ := hmark
  obtain ⟨mid, h1, _, _⟩ := tokens_gap (tokens_tokenize u!"hi" a) m3 hg.2 hg.1 ha (by
    obtain ⟨c, y, e, hc⟩ := m1
    intro d w he; rw [e] at he; injection he with h1 h2; rw [← h1]; exact hc)
  refine c58_pieces u!"hi" hl (a ++ g ++ [mark]) g' b _ h1 (Or.inr ⟨tokenize a u!"hi" ++ mid, [mark], [], rfl, Or.inl m4, by simp⟩) ?_ hg' hb _ _
    (parse_eq hd _) (parse_eq hd _)
  obtain ⟨y, c, e, hc⟩ := m2
  refine ⟨withoutSoftHyphens (a ++ g) ++ y, c, ?_, hc⟩
  unfold withoutSoftHyphens at e ⊢
  rw [List.filter_append, e]; simp

example : parse u!"मुझे दो ." (some u!"hi") = .ok u!"मुझे 2 ." ∧ parse u!"तीन सौ" (some u!"hi") = .ok u!"300" ∧
    parse u!"मुझे दो . तीन सौ" (some u!"hi") = .ok u!"मुझे 2 . 300" := by decide +kernel

end NumberParser.Props
