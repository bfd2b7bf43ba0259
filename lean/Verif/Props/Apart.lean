import Verif.Props.Agreement
import Verif.Props.Hindi
import Verif.Proofs.Apart
import Verif.Proofs.ApartJoin

/-!
# C75: numbers one after another

`Spec.Apart` (Verif/Spec/Apart.lean) says by arithmetic when the spelling of one number cannot be continued by the first word of the next.
-/

namespace NumberParser.Props
open NumberParser NumberParser.Spec

set_option maxRecDepth 100000

theorem lang_continues {L : Lang} (hL : L ∈ languages) {m n : Nat} (hm : m < L.bound) (hn : n < L.bound) :
    ∃ k, (wordKinds (mkLangData (file L.code)) (L.words n)).head? = some k ∧ FirstKind n k ∧
      (Continues (mkLangData (file L.code)).maximumGroupValue (wordKinds (mkLangData (file L.code)) (L.words m)) k ↔ ¬ Apart L.code m n) := by
  have comb : ∀ {ld : LangData} {mg : Nat} {ws ws' : List PyStr} {P : Prop}, (∃ k, (wordKinds ld ws).head? = some k ∧ FirstKind n k) →
      (∃ k, (wordKinds ld ws).head? = some k ∧ (Continues mg (wordKinds ld ws') k ↔ P)) →
      ∃ k, (wordKinds ld ws).head? = some k ∧ FirstKind n k ∧ (Continues mg (wordKinds ld ws') k ↔ P) := by
    rintro ld mg ws ws' P ⟨k, h1, h2⟩ ⟨k', h1', h2'⟩
    rw [h1] at h1'
    cases h1'
    exact ⟨k, h1, h2, h2'⟩
  simp only [languages, List.mem_cons, List.not_mem_nil, or_false] at hL
  rcases hL with rfl | rfl | rfl | rfl | rfl
  · exact comb (en_firstKind hn) (en_continues hm hn)
  · exact comb (es_firstKind hn) (es_continues hm hn)
  · exact comb (hi_firstKind hn) (hi_continues hm hn)
  · exact comb (ru_firstKind hn) (ru_continues hm hn)
  · exact comb (uk_firstKind hn) (uk_continues hm hn)

/-- A piece of the text, with its tokens. -/
structure Chunk (l : PyStr) (t : PyStr) (is : List RunItem) : Prop where
  tokens : ∃ ts, Tokens l t ts ∧ RunTokens l ts is
  starts : StartsNS (withoutSoftHyphens t)
  ends : EndsNS (withoutSoftHyphens t)

theorem runTokens_skips {l : PyStr} {mid : List PyStr} (h : ∀ t ∈ mid, ∀ c ∈ t, isSpace c = true) : RunTokens l mid [] := by
  induction mid with
  | nil => exact .nil
  | cons t mid ih => exact .blank (norm_space (h t (by simp))) (ih (fun x hx => h x (by simp [hx])))

theorem shy_append (a b : PyStr) : withoutSoftHyphens (a ++ b) = withoutSoftHyphens a ++ withoutSoftHyphens b := by
  unfold withoutSoftHyphens; rw [List.filter_append]

/-- The tokens of several pieces with spaces between. -/
theorem chunks_tokens {l : PyStr} : ∀ (cs : List (PyStr × List RunItem)) (t : PyStr) (is : List RunItem) (ts : List PyStr), Tokens l t ts → RunTokens l ts is →
    Chunk l t is → (∀ c ∈ cs, Chunk l c.1 c.2) →
    ∃ more, Tokens l (spaced (t :: cs.map (fun c => c.1))) (ts ++ more) ∧ RunTokens l (ts ++ more) (is ++ cs.flatMap (fun c => c.2)) ∧
      StartsNS (withoutSoftHyphens (spaced (t :: cs.map (fun c => c.1)))) := by
  intro cs
  induction cs with
  | nil =>
    intro t is ts h1 h2 h3 _
    exact ⟨[], by rw [List.append_nil]; exact h1, by simpa using h2, h3.starts⟩
  | cons c cs ih =>
    intro t is ts h1 h2 h3 h4
    have hc := h4 c (by simp)
    obtain ⟨ts', h5, h6⟩ := hc.tokens
    obtain ⟨more, h7, h8, h9⟩ := ih c.1 c.2 ts' h5 h6 hc (fun x hx => h4 x (by simp [hx]))
    obtain ⟨mid, h10, _, h12⟩ := tokens_gap (g := u!" ") h1 h7 (by decide) (by decide) h3.ends h9
    refine ⟨mid ++ (ts' ++ more), ?_, ?_, ?_⟩
    · rw [List.map_cons, ← List.append_assoc]
      exact h10
    · rw [List.flatMap_cons]
      have := runTokens_append (runTokens_skips (l := l) h12) h8
      rw [List.nil_append] at this
      exact runTokens_append h2 this
    · rw [List.map_cons]
      show StartsNS (withoutSoftHyphens (t ++ u!" " ++ spaced _))
      rw [shy_append, shy_append, List.append_assoc]
      refine StartsNS.append_left h3.starts ?_
      obtain ⟨y, c', e, _⟩ := h3.ends
      rw [e]; simp

theorem kindOfClass_inj {k k' : Class} {v v' : Nat} (h : kindOfClass k v = kindOfClass k' v') : k = k' ∧ v = v' := by
  cases k <;> cases k' <;> simp_all [kindOfClass]

/-- What is known of a spelled number as a piece of a text. -/
theorem spells_piece {L : Lang} (hL : L ∈ languages) {n : Nat} {t : PyStr} (h : Spells L n t) :
    ∃ is w ts, Tokens L.code t (w :: ts) ∧ Cardinal L.code w ∧ RunTokens L.code (w :: ts) is ∧ Chunk L.code t is ∧ Piece L.code is n ∧
      kindsOf (runWords is) = wordKinds (mkLangData (file L.code)) (L.words n) ∧ (0x27 ∉ t ∧ 0x2019 ∉ t) := by
  obtain ⟨h1, ⟨cw, hcw, h2⟩, h3⟩ := id h
  obtain ⟨hst, hl⟩ := styleOK hL
  have hld := supported_data hl
  have hwf := languageData_wf hld
  obtain ⟨hk, hval⟩ := lang_form_value hL h1 hcw
  have hsame := (form_kinds hl hcw).1
  have hf := Text.frag hst h2 hk
  obtain ⟨w, v, ws', e, hwv, hhd, _⟩ := Text.head hst h2
  have hkv : (mkLangData (file L.code)).allNumbers.mem (norm v) = true := by
    have e2 : norm v = norm w := hwv.2
    rw [e2]; exact hk w (by rw [e]; simp)
  have hcv : Cardinal L.code v := (cardinal_iff hl v).mpr hkv
  have hne : v ≠ [] := by
    rintro rfl
    exact cardinal_not_blank hl hcv (norm_space (by simp))
  have hns : noShy t = t := noShy_plain hf.plain
  have hns' : withoutSoftHyphens t = t := hns
  have htok := tokens_tokenize L.code t
  have hsplit : tokenize t L.code = v :: (split L.code t).tail := by
    rw [tokenize_eq, hns, ← hhd]; exact split_cons _ _
  have hall : ∀ x ∈ tokenize t L.code, Cardinal L.code x ∨ Skip L.code x ∨ BlankForm x := by
    intro x hx
    cases hb : blank x with
    | true => exact Or.inr (Or.inr (norm_space ((blank_spec x).mp hb)))
    | false =>
      rw [tokenize_eq, hns] at hx
      have := hf.ok (norm x) (List.mem_map.mpr ⟨x, List.mem_filter.mpr ⟨hx, by rw [hb]; rfl⟩, rfl⟩)
      unfold numOrSkip at this
      rw [Bool.or_eq_true] at this
      rcases this with h | h
      · exact Or.inl ((cardinal_iff hl x).mpr h)
      · exact Or.inr (Or.inl ((skip_iff _ _).mpr h))
  obtain ⟨is, hi⟩ := runTokens_of hall
  have hend : EndsNS t := by
    rcases List.eq_nil_or_concat t with e' | ⟨y, c, e'⟩
    · exfalso
      have := htok.1
      rw [hsplit, hns', e', List.flatten_cons] at this
      exact hne (List.append_eq_nil_iff.mp this).1
    · rw [List.concat_eq_append] at e'
      exact ⟨y, c, e', h3 c y e'⟩
  have hstart : StartsNS t := by
    intro c cs' e'
    have hfl := htok.1
    rw [hsplit, hns'] at hfl
    cases v with
    | nil => exact absurd rfl hne
    | cons c0 v =>
      rw [e', List.flatten_cons, List.cons_append] at hfl
      injection hfl with hfl _
      subst hfl
      exact nonsep_nonspace (hst.word c0 (hwv.1 c0 (by simp))).1
  have hendnum : EndsNumber L.code (tokenize t L.code) := by
    by_cases hhi : L.code = u!"hi"
    · have : L = hindi := by
        simp only [languages, List.mem_cons, List.not_mem_nil, or_false] at hL
        rcases hL with rfl | rfl | rfl | rfl | rfl
        · exact absurd hhi (by decide)
        · exact absurd hhi (by decide)
        · rfl
        · exact absurd hhi (by decide)
        · exact absurd hhi (by decide)
      subst this
      obtain ⟨⟨ts, ht, he⟩, _⟩ := hindi_number h
      have e1 := (tokens_iff _ _ _).mp ht
      show EndsNumber u!"hi" (tokenize t u!"hi")
      rw [← e1]; exact he
    · obtain ⟨ts, x, hx, hm⟩ := text_last hst hhi h2 hk h3
      exact ⟨ts, x, [], by rw [tokenize_eq, hns, hx], (cardinal_iff hl x).mpr hm, by simp⟩
  have hkinds : kindsOf (runWords is) = wordKinds (mkLangData (file L.code)) (L.words n) := by
    rw [← (onlyWords_kinds hl (runTokens_words hi)).1, ← hsame, ← hf.kinds]
    have h4 : formsOf (tokenize t L.code) = solid L.code t := (solid_tokens htok).symm
    rw [h4, solid_of_frag hld hf]
  have hpos := (runTokens_facts hl hi).2.2
  have hfirst : ∃ k v r, is = .word k v :: r ∧ (k = .scale ∧ 2 ≤ v ∨ k ≠ .scale ∧ (0 < v ∨ n = 0)) := by
    obtain ⟨k, v', r, e1⟩ := run_head hl (⟨hi, v, _, hsplit, hcv⟩ : Run L.code (tokenize t L.code) is)
    refine ⟨k, v', r, e1, ?_⟩
    obtain ⟨q, hq, hq1, _⟩ := lang_continues hL h1 h1
    rw [← hkinds, e1] at hq
    injection hq with hq
    rw [← hq] at hq1
    cases k <;> simp only [kindOfClass, FirstKind] at hq1 <;> simp [hq1]
  have hlast := run_endsNumber hl hi hendnum
  refine ⟨is, v, (split L.code t).tail, by rw [← hsplit]; exact htok, hcv, by rw [← hsplit]; exact hi,
    ⟨⟨_, htok, hi⟩, by rw [hns']; exact hstart, by rw [hns']; exact hend⟩, ⟨hfirst, hlast, ?_, ?_, hpos⟩, hkinds, ?_, ?_⟩
  · obtain ⟨r, hr, hv⟩ := kindsValue_run hval
    rw [readsAs_run hpos, hkinds, ← hsame]
    exact ⟨r, hr, hv⟩
  · rintro rfl
    obtain ⟨k, v', r, e1, _⟩ := hfirst
    obtain ⟨r', k2, v2, e2⟩ := hlast
    have hz : wordKinds (mkLangData (file L.code)) (L.words 0) = [.unit 0] := by
      simp only [languages, List.mem_cons, List.not_mem_nil, or_false] at hL
      rcases hL with rfl | rfl | rfl | rfl | rfl <;> decide +kernel
    rw [hz] at hkinds
    cases r with
    | nil =>
      rw [e1] at hkinds ⊢
      have : kindOfClass k v' = .unit 0 := by simpa [runWords, kindsOf] using hkinds
      obtain ⟨rfl, rfl⟩ := kindOfClass_inj (k' := .unit) (v' := 0) this
      rfl
    | cons i r =>
      exfalso
      -- the last item is a second word
      have hlen : (runWords is).length = 1 := by
        have := congrArg List.length hkinds
        simpa [kindsOf] using this
      have hr' : r' ≠ [] := by
        rintro rfl
        rw [e1] at e2
        simp at e2
      obtain ⟨i0, r'', e3⟩ : ∃ i0 r'', r' = i0 :: r'' := by
        cases r' with
        | nil => exact absurd rfl hr'
        | cons a b => exact ⟨a, b, rfl⟩
      rw [e3, e1, List.cons_append] at e2
      injection e2 with e4 e5
      rw [e1, e5] at hlen
      simp only [runWords, List.length_cons] at hlen
      have h6 := runWords_append r'' [RunItem.word k2 v2]
      rw [h6] at hlen
      simp [runWords] at hlen
  · intro hc; have := hf.plain _ hc; revert this; decide
  · intro hc; have := hf.plain _ hc; revert this; decide

/-- The first word of the next number joins, if the numbers are not apart. -/
theorem joins_iff {L : Lang} (hL : L ∈ languages) {m n : Nat} (hm : m < L.bound) (hn : n < L.bound) {a b : List RunItem} (ha : Piece L.code a m)
    (hb : Piece L.code b n) (ka : kindsOf (runWords a) = wordKinds (mkLangData (file L.code)) (L.words m))
    (kb : kindsOf (runWords b) = wordKinds (mkLangData (file L.code)) (L.words n)) : Joins L.code a b ↔ ¬ Apart L.code m n := by
  obtain ⟨q, hq, _, hc⟩ := lang_continues hL hm hn
  rw [← hc]
  obtain ⟨k, v, r, e, _⟩ := hb.first
  rw [← kb, e] at hq
  injection hq with hq
  have hq : kindOfClass k v = q := hq
  have hpos : PosScale (runWords a ++ [(k, v)]) := by
    have := hb.pos
    rw [e] at this
    have h2 : PosScale ([(k, v)] ++ runWords r) := this
    exact ha.pos.append h2.left
  have key : (∃ x, ReadsAs L.code (runWords a ++ [(k, v)]) x) ↔ Continues (mkLangData (file L.code)).maximumGroupValue (wordKinds (mkLangData (file L.code)) (L.words m)) q := by
    unfold Continues
    rw [← ka, ← hq]
    have e1 : kindsOf (runWords a) ++ [kindOfClass k v] = kindsOf (runWords a ++ [(k, v)]) := by rw [kindsOf_append]; rfl
    rw [e1]
    constructor
    · rintro ⟨x, hx⟩
      obtain ⟨r, hr, _⟩ := (readsAs_run hpos).mp hx
      exact ⟨r, hr⟩
    · rintro ⟨r, hr⟩
      exact ⟨r.value, (readsAs_run hpos).mpr ⟨r, hr, rfl⟩⟩
  rw [← key]
  constructor
  · rintro ⟨k', v', r', x, e', hx⟩
    rw [e] at e'
    injection e' with e' _
    cases e'
    exact ⟨x, hx⟩
  · rintro ⟨x, hx⟩
    exact ⟨k, v, r, x, e, hx⟩

/-- What `parse` makes of a run of number words. -/
theorem parse_run {l : PyStr} (hl : l ∈ supported) {s w : PyStr} {rest : List PyStr} {is : List RunItem} {xs : List PyStr}
    (ht : Tokens l s (w :: rest)) (hw : Cardinal l w) (hi : RunTokens l (w :: rest) is) (hx : Cut l is xs) : parse s (some l) = .ok (spaced xs) := by
  have hrun : Run l (w :: rest) is := ⟨hi, w, rest, rfl, hw⟩
  rw [(c55_parse l hl s _ ht _).mpr ⟨_, Converted.ending hrun hx, rfl⟩]
  have hsol := spaced_solid hx
  obtain ⟨ys, m, rfl⟩ := cut_last hx
  rw [withSpaces_snoc, strip_trail hsol.1 hsol.2.1 hsol.2.2 (by decide)]

/-! ## Texts that are converted to the same words -/

theorem split_at_space {a b r r' : PyStr} (ha : 0x20 ∉ a) (hb : 0x20 ∉ b) (h : a ++ 0x20 :: r = b ++ 0x20 :: r') : a = b ∧ r = r' := by
  induction a generalizing b with
  | nil =>
    cases b with
    | nil => simp only [List.nil_append, List.cons.injEq, true_and] at h; exact ⟨rfl, h⟩
    | cons c b => injection h with h _; exact absurd (by rw [← h]; simp) hb
  | cons d a ih =>
    cases b with
    | nil => injection h with h _; exact absurd (by rw [h]; simp) ha
    | cons c b =>
      injection h with h1 h2
      obtain ⟨h3, h4⟩ := ih (fun hm => ha (by simp [hm])) (fun hm => hb (by simp [hm])) h2
      exact ⟨by rw [h1, h3], h4⟩

theorem spaced_inj : ∀ {xs ys : List PyStr}, (∀ x ∈ xs, 0x20 ∉ x) → (∀ y ∈ ys, 0x20 ∉ y) → xs ≠ [] → ys ≠ [] → spaced xs = spaced ys → xs = ys := by
  intro xs
  induction xs with
  | nil => intro ys _ _ h; exact absurd rfl h
  | cons x xs ih =>
    intro ys hx hy _ hne h
    cases ys with
    | nil => exact absurd rfl hne
    | cons y ys =>
      cases xs with
      | nil =>
        cases ys with
        | nil => simp only [spaced] at h; rw [h]
        | cons y' ys =>
          have : 0x20 ∈ x := by
            have e : x = y ++ u!" " ++ spaced (y' :: ys) := h
            rw [e]; simp
          exact absurd this (hx x (by simp))
      | cons x' xs =>
        cases ys with
        | nil =>
          have : 0x20 ∈ y := by
            have e : x ++ u!" " ++ spaced (x' :: xs) = y := h
            rw [← e]; simp
          exact absurd this (hy y (by simp))
        | cons y' ys =>
          have e : x ++ 0x20 :: spaced (x' :: xs) = y ++ 0x20 :: spaced (y' :: ys) := by
            simpa [spaced] using h
          obtain ⟨h1, h2⟩ := split_at_space (hx x (by simp)) (hy y (by simp)) e
          rw [h1, ih (fun z hz => hx z (by simp [hz])) (fun z hz => hy z (by simp [hz])) (by simp) (by simp) h2]

theorem cut_elements {l : PyStr} {is : List RunItem} {xs : List PyStr} (h : Cut l is xs) : ∀ x ∈ xs, (∃ n, x = decDigits n) ∨ .conj x ∈ is := by
  induction h with
  | @last is n hr => intro x hx; simp only [List.mem_cons, List.not_mem_nil, or_false] at hx; exact Or.inl ⟨n, hx⟩
  | @more is rest cs n k v xs _ _ _ _ ih =>
    intro x hx
    rw [List.cons_append] at hx
    rcases List.mem_cons.mp hx with hx | hx
    · exact Or.inl ⟨n, hx⟩
    · rcases List.mem_append.mp hx with hx | hx
      · exact Or.inr (by simp [hx])
      · rcases ih x hx with h | h
        · exact Or.inl h
        · exact Or.inr (List.mem_append_right _ h)

theorem conj_solid : ∀ l ∈ supported, ∀ f ∈ (file l).skipTokens, 0x20 ∉ f := by decide +kernel

theorem runTokens_conj {l : PyStr} (hl : l ∈ supported) {ts : List PyStr} {is : List RunItem} (h : RunTokens l ts is) : ∀ f, .conj f ∈ is → 0x20 ∉ f := by
  induction h with
  | nil => intro f hf; cases hf
  | word _ _ ih =>
    intro f hf
    rcases List.mem_cons.mp hf with hf | hf
    · cases hf
    · exact ih f hf
  | @conj t ts is hs _ ih =>
    intro f hf
    rcases List.mem_cons.mp hf with hf | hf
    · cases hf; exact conj_solid l hl _ hs
    · exact ih f hf
  | blank _ _ ih => exact ih

theorem digits_noSpace (n : Nat) : 0x20 ∉ decDigits n := fun hm => by have := (decDigits_isDigit n).2 _ hm; omega

/-! ## The property -/

/-- The pieces of a list of spelled numbers. -/
theorem spells_pieces {L : Lang} (hL : L ∈ languages) : ∀ (items : List (Nat × PyStr)), (∀ x ∈ items, Spells L x.1 x.2) →
    ∃ ps : List (PyStr × List RunItem × Nat), ps.map (fun p => p.1) = items.map (fun x => x.2) ∧ ps.map (fun p => p.2.2) = items.map (fun x => x.1) ∧
      (∀ p ∈ ps, Chunk L.code p.1 p.2.1 ∧ Piece L.code p.2.1 p.2.2 ∧ p.2.2 < L.bound ∧
        kindsOf (runWords p.2.1) = wordKinds (mkLangData (file L.code)) (L.words p.2.2)) := by
  intro items
  induction items with
  | nil => intro _; exact ⟨[], rfl, rfl, by simp⟩
  | cons x items ih =>
    intro h
    obtain ⟨ps, h1, h2, h3⟩ := ih (fun y hy => h y (by simp [hy]))
    have hx := h x (by simp)
    obtain ⟨is, _, _, _, _, _, hc, hp, hk, _⟩ := spells_piece hL hx
    refine ⟨(x.2, is, x.1) :: ps, by rw [List.map_cons, List.map_cons, h1], by rw [List.map_cons, List.map_cons, h2], ?_⟩
    intro p hpm
    rcases List.mem_cons.mp hpm with rfl | hpm
    · exact ⟨hc, hp, hx.1, hk⟩
    · exact h3 p hpm

/-- **C75**: spelled numbers with single spaces between them are converted to these numbers exactly if each of them is apart from the next one. -/
theorem c75_apart (L : Lang) (hL : L ∈ languages) (items : List (Nat × PyStr)) (hne : items ≠ []) (h : ∀ x ∈ items, Spells L x.1 x.2) :
    parse (spaced (items.map (fun x => x.2))) (some L.code) = .ok (spaced (items.map (fun x => decDigits x.1))) ↔
      NeighboursApart L.code (items.map (fun x => x.1)) := by
  have hl := (styleOK hL).2
  cases items with
  | nil => exact absurd rfl hne
  | cons x items =>
    obtain ⟨is, w, ts, h1, h2, h3, h4, h5, h6, _⟩ := spells_piece hL (h x (by simp))
    obtain ⟨ps, e1, e2, h7⟩ := spells_pieces hL items (fun y hy => h y (by simp [hy]))
    obtain ⟨more, h8, h9, _⟩ := chunks_tokens (ps.map (fun p => (p.1, p.2.1))) x.2 is (w :: ts) h1 h3 h4 (by
      intro c hc
      obtain ⟨p, hp, rfl⟩ := List.mem_map.mp hc
      exact (h7 p hp).1)
    have etext : (x.2 :: (ps.map (fun p => (p.1, p.2.1))).map (fun c => c.1)) = (x :: items).map (fun x => x.2) := by
      rw [List.map_map, List.map_cons, ← e1]; rfl
    rw [etext] at h8
    rw [List.cons_append] at h8 h9
    have eitems : is ++ (ps.map (fun p => (p.1, p.2.1))).flatMap (fun c => c.2) = pieceItems ((is, x.1) :: ps.map (fun p => p.2)) := by
      rw [pieceItems_cons, List.flatMap_map]
      unfold pieceItems
      rw [List.map_map, List.flatMap_def]; rfl
    rw [eitems] at h9
    have hpieces : ∀ p ∈ (is, x.1) :: ps.map (fun p => p.2), Piece L.code p.1 p.2 := by
      intro p hp
      rcases List.mem_cons.mp hp with rfl | hp
      · exact h5
      · obtain ⟨q, hq, rfl⟩ := List.mem_map.mp hp
        exact (h7 q hq).2.1
    have edig : ((is, x.1) :: ps.map (fun p => p.2)).map (fun p => decDigits p.2) = (x :: items).map (fun x => decDigits x.1) := by
      rw [List.map_cons, List.map_cons, List.map_map]
      have := congrArg (List.map decDigits) e2
      rw [List.map_map, List.map_map] at this
      exact congrArg _ this
    -- apart
    have hap : ∀ (ps : List (PyStr × List RunItem × Nat)) (is : List RunItem) (m : Nat), m < L.bound → Piece L.code is m →
        kindsOf (runWords is) = wordKinds (mkLangData (file L.code)) (L.words m) →
        (∀ p ∈ ps, Chunk L.code p.1 p.2.1 ∧ Piece L.code p.2.1 p.2.2 ∧ p.2.2 < L.bound ∧
          kindsOf (runWords p.2.1) = wordKinds (mkLangData (file L.code)) (L.words p.2.2)) →
        (AllApart L.code ((is, m) :: ps.map (fun p => p.2)) ↔ NeighboursApart L.code (m :: ps.map (fun p => p.2.2))) := by
      intro ps
      induction ps with
      | nil => intro _ _ _ _ _ _; exact Iff.rfl
      | cons p ps ih =>
        intro is m hm hp hk hps
        obtain ⟨_, q2, q3, q4⟩ := hps p (by simp)
        have hrec := ih p.2.1 p.2.2 q3 q2 q4 (fun y hy => hps y (by simp [hy]))
        have hj := joins_iff hL hm q3 hp q2 hk q4
        show (¬ Joins L.code is p.2.1 ∧ AllApart L.code ((p.2.1, p.2.2) :: ps.map (fun p => p.2))) ↔
          (Apart L.code m p.2.2 ∧ NeighboursApart L.code (p.2.2 :: ps.map (fun p => p.2.2)))
        rw [hrec, hj, Classical.not_not]
    have hiff := hap ps is x.1 (h x (by simp)).1 h5 h6 h7
    have emap : (x :: items).map (fun x => x.1) = x.1 :: ps.map (fun p => p.2.2) := by rw [List.map_cons, e2]
    rw [emap, ← hiff, ← edig]
    constructor
    · intro hp
      obtain ⟨k, v, r, er, _⟩ := h5.first
      obtain ⟨xs, hx⟩ := cut_exists (l := L.code) k v (r ++ pieceItems (ps.map (fun p => p.2)))
      have hx' : Cut L.code (pieceItems ((is, x.1) :: ps.map (fun p => p.2))) xs := by
        rw [pieceItems_cons, er]; exact hx
      rw [parse_run hl h8 h2 h9 hx'] at hp
      injection hp with hp
      have := spaced_inj (fun y hy => by
          rcases cut_elements hx' y hy with ⟨n, rfl⟩ | hc
          · exact digits_noSpace n
          · exact runTokens_conj hl h9 y hc)
        (fun y hy => by
          obtain ⟨p, _, rfl⟩ := List.mem_map.mp hy
          exact digits_noSpace _) (cut_ne hx') (by simp) hp
      rw [this] at hx'
      exact apart_of_cut _ hpieces hx'
    · intro ha
      exact parse_run hl h8 h2 h9 (cut_apart _ hpieces (by simp) ha)

/-- **C75**: several numbers that are apart are no number for `parse_number`. -/
theorem c75_number (L : Lang) (hL : L ∈ languages) (items : List (Nat × PyStr)) (h2 : 2 ≤ items.length) (h : ∀ x ∈ items, Spells L x.1 x.2)
    (ha : NeighboursApart L.code (items.map (fun x => x.1))) : parseNumber (spaced (items.map (fun x => x.2))) (some L.code) = .ok none := by
  have hl := (styleOK hL).2
  have hp := (c75_apart L hL items (by rintro rfl; simp at h2) h).mpr ha
  match items, h2 with
  | x :: y :: items, _ =>
    obtain ⟨is, w, ts, h1, hw, h3, h4, _⟩ := spells_piece hL (h x (by simp))
    obtain ⟨ps, e1, e2, h7⟩ := spells_pieces hL (y :: items) (fun z hz => h z (by simp [hz]))
    obtain ⟨more, h8, h9, _⟩ := chunks_tokens (ps.map (fun p => (p.1, p.2.1))) x.2 is (w :: ts) h1 h3 h4 (by
      intro c hc
      obtain ⟨p, hp, rfl⟩ := List.mem_map.mp hc
      exact (h7 p hp).1)
    have etext : (x.2 :: (ps.map (fun p => (p.1, p.2.1))).map (fun c => c.1)) = (x :: y :: items).map (fun x => x.2) := by
      rw [List.map_map, List.map_cons, ← e1]; rfl
    rw [etext, List.cons_append] at h8
    rw [List.cons_append] at h9
    have hapos : ∀ zs : List (Nat × PyStr), (∀ z ∈ zs, Spells L z.1 z.2) → 0x27 ∉ spaced (zs.map (fun z => z.2)) ∧ 0x2019 ∉ spaced (zs.map (fun z => z.2)) := by
      intro zs
      induction zs with
      | nil => intro _; simp [spaced]
      | cons z zs ih =>
        intro hz
        obtain ⟨_, _, _, _, _, _, _, _, _, hq1, hq2⟩ := spells_piece hL (hz z (by simp))
        obtain ⟨hr1, hr2⟩ := ih (fun y hy => hz y (by simp [hy]))
        cases zs with
        | nil => exact ⟨hq1, hq2⟩
        | cons z' zs =>
          constructor
          · intro hm
            have hm : 0x27 ∈ z.2 ++ u!" " ++ spaced ((z' :: zs).map (fun z => z.2)) := hm
            rcases List.mem_append.mp hm with hm | hm
            · rcases List.mem_append.mp hm with hm | hm
              · exact hq1 hm
              · revert hm; decide
            · exact hr1 hm
          · intro hm
            have hm : 0x2019 ∈ z.2 ++ u!" " ++ spaced ((z' :: zs).map (fun z => z.2)) := hm
            rcases List.mem_append.mp hm with hm | hm
            · rcases List.mem_append.mp hm with hm | hm
              · exact hq2 hm
              · revert hm; decide
            · exact hr2 hm
    have hrest : ∀ t ∈ ts ++ more, Cardinal L.code t ∨ Skip L.code t ∨ BlankForm t := by
      intro t ht
      have key : ∀ {us : List PyStr} {js : List RunItem}, RunTokens L.code us js → ∀ t ∈ us, Cardinal L.code t ∨ Skip L.code t ∨ BlankForm t := by
        intro us js hr
        induction hr with
        | nil => intro t ht; cases ht
        | word hw _ ih =>
          intro t ht
          rcases List.mem_cons.mp ht with rfl | ht
          · exact Or.inl ⟨_, _, hw⟩
          · exact ih t ht
        | conj hs _ ih =>
          intro t ht
          rcases List.mem_cons.mp ht with rfl | ht
          · exact Or.inr (Or.inl hs)
          · exact ih t ht
        | blank hb _ ih =>
          intro t ht
          rcases List.mem_cons.mp ht with rfl | ht
          · exact Or.inr (Or.inr hb)
          · exact ih t ht
      exact key h9 t (List.mem_cons_of_mem _ ht)
    refine (c74_several L.code hl _ [] (ts ++ more) w h8 (by simp) hw hrest (hapos _ h) _ hp).mpr ?_
    exact spaced_two

/-! ## Conjunctions between the numbers -/

theorem filler_chunk {L : Lang} (hL : L ∈ languages) {c f : PyStr} (hf : f ∈ L.style.fillers) (hw : Writes L.style f c) : Chunk L.code c [.conj (form c)] := by
  obtain ⟨hst, hl⟩ := styleOK hL
  have hskip : Skip L.code c := by
    rw [skip_iff]
    have e : norm c = norm f := hw.2
    rw [e]
    exact hst.filler f hf
  have hhi : L.code ≠ u!"hi" := by
    simp only [languages, List.mem_cons, List.not_mem_nil, or_false] at hL
    rcases hL with rfl | rfl | rfl | rfl | rfl
    · decide
    · decide
    · cases hf
    · decide
    · decide
  have hchars : ∀ x ∈ c, sepChar L.code x = false ∧ plainChar x = true := fun x hx => hst.word x (hw.1 x hx)
  have hns : withoutSoftHyphens c = c := noShy_plain (fun x hx => (hchars x hx).2)
  have hne : c ≠ [] := by
    rintro rfl
    rw [skip_iff, (blank_not_number (supported_data hl) ((blankForm_iff []).mp (norm_space (by simp)))).2] at hskip
    cases hskip
  have htok : Tokens L.code c [c] := by
    rw [tokens_iff, tokenize_eq, show noShy c = c from hns, nonhi_split hhi, splitNonWord_word]
    rw [List.all_eq_true]
    intro x hx
    have := (hchars x hx).1
    rw [nonhi_sepChar hhi] at this
    simpa using this
  have hsolid : ∀ x ∈ c, isSpace x = false := fun x hx => nonsep_nonspace (hchars x hx).1
  refine ⟨⟨[c], htok, .conj hskip .nil⟩, ?_, ?_⟩
  · rw [hns]
    rintro x xs rfl
    exact hsolid x (by simp)
  · rw [hns]; exact endsNS_of hne hsolid

/-- The pieces of linked numbers. -/
theorem linked_pieces {L : Lang} (hL : L ∈ languages) : ∀ (rest : List (List PyStr × Nat × PyStr)),
    (∀ x ∈ rest, (∀ c ∈ x.1, ∃ f ∈ L.style.fillers, Writes L.style f c) ∧ Spells L x.2.1 x.2.2) →
    ∃ (cs : List (PyStr × List RunItem)) (qs : List (List PyStr × List RunItem × Nat)),
      cs.map (fun c => c.1) = rest.flatMap (fun x => x.1 ++ [x.2.2]) ∧
      cs.flatMap (fun c => c.2) = qs.flatMap (fun q => q.1.map .conj ++ q.2.1) ∧
      qs.flatMap (fun q => q.1 ++ [decDigits q.2.2]) = rest.flatMap (fun x => x.1.map form ++ [decDigits x.2.1]) ∧
      qs.map (fun q => q.2.2) = rest.map (fun x => x.2.1) ∧ (∀ c ∈ cs, Chunk L.code c.1 c.2) ∧
      (∀ q ∈ qs, Piece L.code q.2.1 q.2.2 ∧ q.2.2 < L.bound ∧ kindsOf (runWords q.2.1) = wordKinds (mkLangData (file L.code)) (L.words q.2.2)) := by
  intro rest
  induction rest with
  | nil => intro _; exact ⟨[], [], rfl, rfl, rfl, rfl, by simp, by simp⟩
  | cons x rest ih =>
    intro h
    obtain ⟨cs, qs, h1, h2, h3, h4, h5, h6⟩ := ih (fun y hy => h y (by simp [hy]))
    obtain ⟨hc, hs⟩ := h x (by simp)
    obtain ⟨is, _, _, _, _, _, hch, hp, hk, _⟩ := spells_piece hL hs
    refine ⟨x.1.map (fun c => (c, [.conj (form c)])) ++ (x.2.2, is) :: cs, (x.1.map form, is, x.2.1) :: qs, ?_, ?_, ?_, ?_, ?_, ?_⟩
    · rw [List.map_append, List.map_map, List.map_cons, h1, List.flatMap_cons]
      have : x.1.map ((fun c => c.1) ∘ fun c => (c, [RunItem.conj (form c)])) = x.1 := by
        have : ((fun c : PyStr × List RunItem => c.1) ∘ fun c => (c, [RunItem.conj (form c)])) = id := rfl
        rw [this, List.map_id]
      rw [this]; simp
    · rw [List.flatMap_append, List.flatMap_cons, h2, List.flatMap_cons, List.flatMap_map]
      have : ∀ l : List PyStr, l.flatMap (fun a => [RunItem.conj (form a)]) = (l.map form).map .conj := by
        intro l; induction l with
        | nil => rfl
        | cons a l ih => rw [List.flatMap_cons, ih]; rfl
      rw [this]; simp
    · rw [List.flatMap_cons, h3, List.flatMap_cons]
    · rw [List.map_cons, List.map_cons, h4]
    · intro c hm
      rcases List.mem_append.mp hm with hm | hm
      · obtain ⟨c', hc', rfl⟩ := List.mem_map.mp hm
        obtain ⟨f, hf, hw⟩ := hc c' hc'
        exact filler_chunk hL hf hw
      · rcases List.mem_cons.mp hm with rfl | hm
        · exact hch
        · exact h5 c hm
    · intro q hq
      rcases List.mem_cons.mp hq with rfl | hq
      · exact ⟨hp, hs.1, hk⟩
      · exact h6 q hq

/-- **C75**: numbers that are apart may also be joined by conjunctions ("and", "y"), which are then kept, in lower case. -/
theorem c75_linked (L : Lang) (hL : L ∈ languages) (n0 : Nat) (t0 : PyStr) (h0 : Spells L n0 t0) (rest : List (List PyStr × Nat × PyStr))
    (h : ∀ x ∈ rest, (∀ c ∈ x.1, ∃ f ∈ L.style.fillers, Writes L.style f c) ∧ Spells L x.2.1 x.2.2)
    (ha : NeighboursApart L.code (n0 :: rest.map (fun x => x.2.1))) :
    parse (spaced (t0 :: rest.flatMap (fun x => x.1 ++ [x.2.2]))) (some L.code) =
      .ok (spaced (decDigits n0 :: rest.flatMap (fun x => x.1.map form ++ [decDigits x.2.1]))) := by
  have hl := (styleOK hL).2
  obtain ⟨is, w, ts, h1, h2, h3, h4, h5, h6, _⟩ := spells_piece hL h0
  obtain ⟨cs, qs, e1, e2, e3, e4, h7, h8⟩ := linked_pieces hL rest h
  obtain ⟨more, h9, h10, _⟩ := chunks_tokens cs t0 is (w :: ts) h1 h3 h4 h7
  rw [e1, List.cons_append] at h9
  rw [e2, List.cons_append] at h10
  rw [← e3]
  refine parse_run hl h9 h2 h10 (cut_linked qs is n0 h5 (fun q hq => (h8 q hq).1) ?_)
  rw [← e4] at ha
  clear h1 h3 h4 h9 h10 e1 e2 e3 e4 h7
  have hb := h0.1
  clear h0
  induction qs generalizing is n0 with
  | nil => trivial
  | cons q qs ih =>
    obtain ⟨q1, q2, q3⟩ := h8 q (by simp)
    obtain ⟨ha1, ha2⟩ := (ha : Apart L.code n0 q.2.2 ∧ NeighboursApart L.code (q.2.2 :: qs.map (fun q => q.2.2)))
    refine ⟨fun hj => (joins_iff hL hb q2 h5 q1 h6 q3).mp hj ha1, ?_⟩
    exact ih q.2.2 q.2.1 q1 q3 ha2 (fun y hy => h8 y (by simp [hy])) q2

/-! ## Cases -/

/-- "250 231 12" in Spanish, "one two three", "twenty ten", "hundreds" of Russian after tens are apart; "twenty one", "one hundred two hundred" are not. -/
example : NeighboursApart u!"es" [250, 231, 12] ∧ NeighboursApart u!"en" [1, 2, 3] ∧ NeighboursApart u!"en" [20, 10] ∧ NeighboursApart u!"ru" [20, 300] ∧
    ¬ NeighboursApart u!"en" [20, 1] ∧ ¬ NeighboursApart u!"en" [100, 200] ∧ ¬ NeighboursApart u!"es" [2, 1000] := by
  simp [NeighboursApart, Apart, apartEs, apartEn, apartSlavic, lead]

example : parse u!"doscientos cincuenta doscientos treinta y uno doce" (some u!"es") = .ok u!"250 231 12" ∧
    parseNumber u!"doscientos cincuenta doscientos treinta y uno doce" (some u!"es") = .ok none := by
  have h : ∀ x ∈ [(250, esText 250), (231, esText 231), (12, esText 12)], Spells spanish x.1 x.2 := by
    intro x hx
    simp only [List.mem_cons, List.not_mem_nil, or_false] at hx
    rcases hx with rfl | rfl | rfl <;> exact spells_esText _ (by decide)
  have ha : NeighboursApart spanish.code [250, 231, 12] := by simp [NeighboursApart, Apart, apartEs, lead, spanish]
  exact ⟨(c75_apart spanish (by simp [languages]) _ (by simp) h).mpr ha, c75_number spanish (by simp [languages]) _ (by decide) h ha⟩

/-- "twenty AND ten": the conjunction between two numbers that are apart stays in the text, in its lower-case form. -/
example : parse u!"twenty AND ten" (some u!"en") = .ok u!"20 and 10" := by
  have h := c75_linked english (by simp [languages]) 20 (enText 20) (spells_enText _ (by decide)) [([u!"AND"], 10, enText 10)] (by
    intro x hx
    simp only [List.mem_cons, List.not_mem_nil, or_false] at hx
    subst hx
    refine ⟨?_, spells_enText _ (by decide)⟩
    intro c hc
    simp only [List.mem_cons, List.not_mem_nil, or_false] at hc
    subst hc
    exact ⟨u!"and", by decide, by decide +kernel, by decide +kernel⟩) (by simp [NeighboursApart, Apart, apartEn, lead, english])
  exact h

/-- Refuted: numbers written one after another do not stay apart in general.  "one hundred two hundred" is read as
"102" and "100", "twenty one" as "21". -/
theorem c75_refuted : ¬ ∀ m n : Nat, 0 < m → 0 < n → ∀ t u : PyStr, Spells english m t → Spells english n u →
    parse (spaced [t, u]) (some u!"en") = .ok (spaced [decDigits m, decDigits n]) := by
  intro h
  have := (c75_apart english (by simp [languages]) [(100, enText 100), (200, enText 200)] (by simp) (by
    intro x hx
    simp only [List.mem_cons, List.not_mem_nil, or_false] at hx
    rcases hx with rfl | rfl <;> exact spells_enText _ (by decide))).mp (h 100 200 (by omega) (by omega) _ _ (spells_enText _ (by decide)) (spells_enText _ (by decide)))
  simp [NeighboursApart, Apart, apartEn, lead, english] at this

set_option maxRecDepth 100000 in
example : parse u!"one hundred two hundred" (some u!"en") = .ok u!"102 100" := by decide +kernel

end NumberParser.Props
