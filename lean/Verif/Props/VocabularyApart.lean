import Verif.Spec.VocabularyApart
import Verif.Proofs.VocabularyApart
import Verif.Props.VocabularyPieces
import Verif.Props.Apart

/-!
# C94: numbers one after another, with any vocabulary

Specification: Verif/Spec/VocabularyApart.lean.
-/

namespace NumberParser.Props
open NumberParser Gen Spec

set_option maxRecDepth 100000

theorem first_token {l s w : PyStr} {ts : List PyStr} (h : Tokens l s (w :: ts)) : Tokens l w [w] ∧ ∀ c ∈ w, isSpace c = false := by
  have hshy : withoutSoftHyphens w = w := by
    apply List.filter_eq_self.mpr
    intro c hc
    have h1 : c ∈ withoutSoftHyphens s := by rw [← h.1]; simp [hc]
    exact (List.mem_filter.mp h1).2
  obtain ⟨_, h2⟩ := h
  by_cases hl : l = u!"hi"
  · rw [if_pos hl] at h2
    have hs : ∀ c ∈ w, isSpace c = false := by cases h2 <;> assumption
    exact ⟨⟨by simp [hshy], by rw [if_pos hl]; exact .last hs⟩, hs⟩
  · rw [if_neg hl] at h2
    have hw : ∀ c ∈ w, isWord c = true := by cases h2 <;> assumption
    refine ⟨⟨by simp [hshy], by rw [if_neg hl]; exact .last hw⟩, fun c hc => ?_⟩
    exact word_not_space (hw c hc)

/-- A piece of the text, with its tokens. -/
structure ChunkOf (l : PyStr) (i : Info) (t : PyStr) (is : List RunItem) : Prop where
  tokens : ∃ ts, Tokens l t ts ∧ RunTokensOf i ts is
  starts : StartsNS (withoutSoftHyphens t)
  ends : EndsNS (withoutSoftHyphens t)

theorem runTokens_skipsOf {i : Info} {mid : List PyStr} (h : ∀ t ∈ mid, ∀ c ∈ t, isSpace c = true) : RunTokensOf i mid [] := by
  induction mid with
  | nil => exact .nil
  | cons t mid ih => exact .blank (norm_space (h t (by simp))) (ih (fun x hx => h x (by simp [hx])))

/-- The tokens of several pieces with white space between. -/
theorem chunks_tokensOf {l : PyStr} {i : Info} : ∀ (cs : List (PyStr × PyStr × List RunItem)) (t : PyStr) (is : List RunItem) (ts : List PyStr),
    Tokens l t ts → RunTokensOf i ts is → ChunkOf l i t is → (∀ c ∈ cs, WhiteSpace c.1 ∧ ChunkOf l i c.2.1 c.2.2) →
    ∃ more, Tokens l (t ++ cs.flatMap (fun c => c.1 ++ c.2.1)) (ts ++ more) ∧ RunTokensOf i (ts ++ more) (is ++ cs.flatMap (fun c => c.2.2)) ∧
      StartsNS (withoutSoftHyphens (t ++ cs.flatMap (fun c => c.1 ++ c.2.1))) := by
  intro cs
  induction cs with
  | nil =>
    intro t is ts h1 h2 h3 _
    exact ⟨[], by simpa using h1, by simpa using h2, by simpa using h3.starts⟩
  | cons c cs ih =>
    intro t is ts h1 h2 h3 h4
    obtain ⟨hg, hc⟩ := h4 c (by simp)
    obtain ⟨ts', h5, h6⟩ := hc.tokens
    obtain ⟨more, h7, h8, h9⟩ := ih c.2.1 c.2.2 ts' h5 h6 hc (fun x hx => h4 x (by simp [hx]))
    obtain ⟨mid, h10, _, h12⟩ := tokens_gap (g := c.1) h1 h7 hg.2 hg.1 h3.ends h9
    have e : t ++ (c :: cs).flatMap (fun c => c.1 ++ c.2.1) = t ++ c.1 ++ (c.2.1 ++ cs.flatMap (fun c => c.1 ++ c.2.1)) := by simp
    refine ⟨mid ++ (ts' ++ more), ?_, ?_, ?_⟩
    · rw [e, show ts ++ (mid ++ (ts' ++ more)) = ts ++ mid ++ (ts' ++ more) by simp]
      exact h10
    · rw [List.flatMap_cons]
      have := runTokens_appendOf (runTokens_skipsOf (i := i) h12) h8
      rw [List.nil_append] at this
      exact runTokens_appendOf h2 this
    · rw [e, shy_append, shy_append, List.append_assoc]
      refine StartsNS.append_left h3.starts ?_
      obtain ⟨y, c', e, _⟩ := h3.ends
      rw [e]; simp

/-- What `parse` makes of a run of number words. -/
theorem parse_runOf {p : Package} {l : PyStr} {i : Info} (h : Knows p l i) {s w : PyStr} {rest : List PyStr} {is : List RunItem} {xs : List PyStr}
    (ht : Tokens l s (w :: rest)) (hw : CardinalOf i w) (hi : RunTokensOf i (w :: rest) is) (hx : CutOf i is xs) :
    parseIn p s (some l) = .ok (spaced xs) := by
  have hrun : RunOf i (w :: rest) is := ⟨hi, w, rest, rfl, hw⟩
  refine (knows_parse h ht).mpr ⟨_, ConvertedOf.ending hrun hx, ?_⟩
  have hd : ∀ m, ∀ c ∈ decDigits m, isSpace c = false := fun m c hc => isSpace_ascii_digit ((decDigits_isDigit m).2 c hc)
  obtain ⟨m, ys', e1⟩ := cut_headOf hx
  obtain ⟨ys, n, rfl⟩ := cut_lastOf hx
  have hend : EndsNS (spaced (ys ++ [decDigits n])) := endsNS_spaced (digits_endsNS n)
  rw [withSpaces_snoc, strip_trail ?_ ?_ ?_ (by decide)]
  · intro c cs e
    rw [e1] at e
    cases hdm : decDigits m with
    | nil => exact absurd hdm (decDigits_isDigit m).1
    | cons c' ds =>
      have hc' := hd m c' (by rw [hdm]; simp)
      have : ∃ r, spaced (decDigits m :: ys') = c' :: r := by
        cases ys' with
        | nil => exact ⟨ds, by simp [spaced, hdm]⟩
        | cons y ys' => exact ⟨_, by simp only [spaced, hdm, List.cons_append]; rfl⟩
      obtain ⟨r, er⟩ := this
      rw [er] at e
      injection e with e _
      rw [← e]; exact hc'
  · obtain ⟨y, c', e, hc'⟩ := hend
    intro c cs e'
    rw [e] at e'
    have := (List.append_inj' e' rfl).2
    injection this with this _
    rw [← this]; exact hc'
  · obtain ⟨y, c', e, hc'⟩ := hend
    rw [e]; simp

/-- Without apostrophes nothing is removed. -/
theorem noApostrophes {m : PyStr} (hap : 0x27 ∉ m ∧ 0x2019 ∉ m) : withoutApostrophes m = m := by
  apply List.filter_eq_self.mpr
  intro c hcm
  have h1 : c ≠ 0x27 := fun e => hap.1 (e ▸ hcm)
  have h2 : c ≠ 0x2019 := fun e => hap.2 (e ▸ hcm)
  simp [h1, h2]

/-- The items of a number text. -/
structure Opened (l : PyStr) (i : Info) (x : NumberText) (is : List RunItem) (ts : List PyStr) : Prop where
  tokens : Tokens l x.text (x.first :: ts)
  run : RunTokensOf i (x.first :: ts) is
  chunk : ChunkOf l i x.text is
  piece : PieceOf i is x.value
  only : OnlyWordsOf i (x.first :: ts) (runWords is)
  head : ∃ k v r, is = .word k v :: r ∧ WordOf i k v x.first

theorem runTokens_onlyOf {i : Info} {ts : List PyStr} {is : List RunItem} (h : RunTokensOf i ts is) : OnlyWordsOf i ts (runWords is) := by
  induction h with
  | nil => exact .nil
  | word hw _ ih => exact .word hw ih
  | conj hs _ ih => exact .other (Or.inr hs) ih
  | blank hb _ ih => exact .other (Or.inl hb) ih

theorem onlyWordsOf_unique {i : Info} (hi : Tidy i) {ts : List PyStr} {ws ws' : List (Class × Nat)} (h : OnlyWordsOf i ts ws)
    (h' : OnlyWordsOf i ts ws') : ws = ws' := by
  have no : ∀ {t : PyStr} {k : Class} {v : Nat}, WordOf i k v t → ¬ (BlankForm t ∨ form t ∈ i.skipTokens) := by
    rintro t k v hw (hb | hs)
    · exact cardinal_not_blankOf hi (last_listed hw) hb
    · exact cardinal_not_skipOf hi (last_listed hw) hs
  induction h generalizing ws' with
  | nil => cases h'; rfl
  | @word t k v _ _ hw _ ih =>
    cases h' with
    | @word _ k' v' _ _ hw' h' =>
      have e : k = k' := hi.oneClass k k' _ (last_lists hw) (last_lists hw')
      subst e
      have ev : v = v' := by
        have h1 := normalize_get_some.mpr hw
        rw [normalize_get_some.mpr hw'] at h1
        injection h1 with h1; exact h1.symm
      rw [ev, ih h']
    | other ho _ => exact absurd ho (no hw)
  | other ho _ ih =>
    cases h' with
    | word hw' _ => exact absurd ho (no hw')
    | other _ h' => exact ih h'

theorem number_opened {p : Package} {l : PyStr} {i : Info} (h : Knows p l i) {x : NumberText} (hx : IsNumberText p l i x) :
    ∃ is ts, Opened l i x is ts := by
  obtain ⟨ts, ht, he⟩ := hx.tokens
  obtain ⟨_, _, ws, h1, h2⟩ := (c82_reads p h.distinct l i h.mem h.tidy.toSensible x.text x.first ts x.value hx.wordInput
    (by rw [noApostrophes hx.noApostrophe]; exact ht)).mp hx.reads
  obtain ⟨is, h3, h4⟩ := onlyWords_runOf h1
  have hpos := (runTokens_factsOf h.tidy h3).2.2
  have hhead : ∃ k v r, is = .word k v :: r ∧ WordOf i k v x.first := by
    cases h3 with
    | word hw _ => exact ⟨_, _, _, rfl, hw⟩
    | conj hs _ => exact absurd hs (cardinal_not_skipOf h.tidy hx.first)
    | blank hb _ => exact absurd hb (cardinal_not_blankOf h.tidy hx.first)
  obtain ⟨k, v, r, e, hw⟩ := id hhead
  exact ⟨is, ts, ht, h3, ⟨⟨_, ht, h3⟩, (solid_startsNS hx.solidStart).1, hx.solidEnd⟩,
    ⟨⟨k, v, r, e⟩, run_endsNumberOf h.tidy h3 he, by rw [h4]; exact h2, hpos⟩, runTokens_onlyOf h3, hhead⟩

theorem wordInput_around {a b : PyStr} {c : Nat} (ha : WordInput a) (hc : isSpace c = true) (hb : ¬ Blank b) : WordInput (a ++ c :: b) := by
  constructor
  · intro hbl
    exact ha.1 (fun c hc => hbl c (by simp [hc]))
  · rintro ⟨u, t, v, e, hu, hv, ht, hn⟩
    have hnum : c ∉ t := fun hm => by
      have h1 := space_not_numeric hc
      rw [hn c hm] at h1; cases h1
    rcases List.append_eq_append_iff.mp e with ⟨z, e1, e2⟩ | ⟨z, e1, e2⟩
    · cases z with
      | nil =>
        rw [List.nil_append] at e2
        exact hb (fun d hd => hv d (by rw [← e2]; simp [hd]))
      | cons d z =>
        rw [List.cons_append] at e2
        injection e2 with e3 e4
        subst e3
        rcases List.append_eq_append_iff.mp e1 with ⟨y, e5, e6⟩ | ⟨y, e5, e6⟩
        · cases y with
          | nil => exact hnum (by rw [List.nil_append] at e6; rw [e6]; simp)
          | cons d' y => exact hnum (by rw [e6]; simp)
        · exact ha.1 (fun x hx => hu x (by rw [e5]; simp [hx]))
    · exact hb (fun d hd => hv d (by rw [e2]; simp [hd]))

theorem wordInput_gap {a b : PyStr} (ha : WordInput a) (hb : b ≠ []) (hs : ∀ c ∈ b, isSpace c = false) : WordInput (a ++ u!" " ++ b) := by
  rw [List.append_assoc]
  refine wordInput_around ha (by decide) (fun h => ?_)
  cases b with
  | nil => exact hb rfl
  | cons c b =>
    have h1 := h c (by simp)
    rw [hs c (by simp)] at h1; cases h1

/-- The first word of the next number continues a number exactly if together they are a number for `parse_number`. -/
theorem continued_iff {p : Package} {l : PyStr} {i : Info} (h : Knows p l i) {x y : NumberText} (hx : IsNumberText p l i x)
    (hy : IsNumberText p l i y) {a b : List RunItem} {ta tb : List PyStr} (oa : Opened l i x a ta) (ob : Opened l i y b tb) :
    parseNumberIn p (x.text ++ u!" " ++ y.first) (some l) = .ok none ↔ ¬ JoinsOf i a b := by
  obtain ⟨hft, hfs⟩ := first_token ob.tokens
  have hne : y.first ≠ [] := by
    intro e
    exact cardinal_not_blankOf h.tidy hy.first (norm_space (by rw [e]; simp))
  have hfn : StartsNS (withoutSoftHyphens y.first) := by
    rw [← hft.1]
    intro c z e
    exact hfs c (by
      have : [y.first].flatten = y.first := by simp
      rw [this] at e; rw [e]; simp)
  obtain ⟨mid, hg, _, hm⟩ := tokens_gap (g := u!" ") oa.tokens hft (by decide) (by decide) oa.chunk.ends hfn
  have hwi := wordInput_gap hx.wordInput hne hfs
  have hap : 0x27 ∉ x.text ++ u!" " ++ y.first ∧ 0x2019 ∉ x.text ++ u!" " ++ y.first := by
    have hsub : ∀ c ∈ y.first, c ∈ y.text := by
      intro c hc
      have h1 : c ∈ withoutSoftHyphens y.text := by rw [← ob.tokens.1]; simp [hc]
      exact (List.mem_filter.mp h1).1
    have k : ∀ c, c ∉ x.text → c ∉ y.text → c ≠ 0x20 → c ∉ x.text ++ u!" " ++ y.first := by
      intro c h1 h2 h3 hc
      simp only [List.mem_append, List.mem_cons, List.not_mem_nil, or_false] at hc
      rcases hc with (hc | hc) | hc
      · exact h1 hc
      · exact h3 hc
      · exact h2 (hsub c hc)
    exact ⟨k _ hx.noApostrophe.1 hy.noApostrophe.1 (by decide), k _ hx.noApostrophe.2 hy.noApostrophe.2 (by decide)⟩
  obtain ⟨k, v, r, e, hw⟩ := ob.head
  have hrun : RunTokensOf i (x.first :: (ta ++ mid ++ [y.first])) (a ++ [.word k v]) := by
    have h1 := runTokens_appendOf (runTokens_appendOf oa.run (runTokens_skipsOf (i := i) hm)) (.word hw .nil : RunTokensOf i [y.first] _)
    simpa using h1
  have hon := runTokens_onlyOf hrun
  have hg' : Tokens l (withoutApostrophes (x.text ++ u!" " ++ y.first)) (x.first :: (ta ++ mid ++ [y.first])) := by
    rw [noApostrophes hap]; simpa using hg
  rw [parseNumberIn_with h.distinct h.mem, c80_none i h.tidy h.moderate l _ _ _ hwi hg']
  have hskip : form x.first ∉ i.skipTokens := cardinal_not_skipOf h.tidy hx.first
  have hrw : runWords (a ++ [.word k v]) = runWords a ++ [(k, v)] := by rw [runWords_append]; rfl
  rw [not_congr]
  constructor
  · rintro ⟨n, ws, _, _, h1, h2⟩
    have e1 : ws = runWords a ++ [(k, v)] := by rw [← hrw]; exact onlyWordsOf_unique h.tidy h1 hon
    rw [e1] at h2
    exact ⟨k, v, r, n, e, h2⟩
  · rintro ⟨k', v', r', n, e', h2⟩
    rw [e] at e'
    injection e' with e1 _
    cases e1
    rw [← hrw] at h2
    exact ⟨n, _, hskip, readAs_moderate h.tidy h.moderate hon h2, hon, h2⟩

theorem conjunction_chunk {l : PyStr} {i : Info} (hi : Tidy i) {c : PyStr} (h : IsConjunction l i c) : ChunkOf l i c [.conj (form c)] := by
  obtain ⟨ht, hs⟩ := h
  obtain ⟨_, hns⟩ := first_token ht
  have hf : c = withoutSoftHyphens c := by simpa using ht.1
  have hne : c ≠ [] := by
    intro e
    exact skip_not_blankOf hi hs (norm_space (by rw [e]; simp))
  refine ⟨⟨[c], ht, .conj hs .nil⟩, ?_, ?_⟩
  · rw [← hf]
    rintro x xs e
    exact hns x (by rw [e]; simp)
  · rw [← hf]; exact endsNS_of hne hns

/-- The pieces of what follows a number. -/
theorem links_chunks {p : Package} {l : PyStr} {i : Info} (h : Knows p l i) : ∀ (es : List Link), (∀ e ∈ es, IsLink p l i e) →
    ∃ (cs : List (PyStr × PyStr × List RunItem)) (qs : List (List PyStr × List RunItem × Nat)),
      cs.flatMap (fun c => c.1 ++ c.2.1) = es.flatMap (fun e => e.conjunctions.flatMap (fun c => c.1 ++ c.2) ++ e.gap ++ e.number.text) ∧
      cs.flatMap (fun c => c.2.2) = qs.flatMap (fun q => q.1.map .conj ++ q.2.1) ∧
      qs.flatMap (fun q => q.1 ++ [decDigits q.2.2]) = es.flatMap (fun e => e.conjunctions.map (fun c => form c.2) ++ [decDigits e.number.value]) ∧
      (∀ c ∈ cs, WhiteSpace c.1 ∧ ChunkOf l i c.2.1 c.2.2) ∧ (∀ q ∈ qs, PieceOf i q.2.1 q.2.2) ∧
      (∀ x a ta, IsNumberText p l i x → Opened l i x a ta → (NotContinued p l x es ↔ LinkedApartOf i a qs)) ∧
      qs.map (fun q => q.1) = es.map (fun e => e.conjunctions.map (fun c => form c.2)) ∧
      (∀ q ∈ qs, ∃ e ∈ es, ∃ tb, Opened l i e.number q.2.1 tb) ∧
      (∀ e es', es = e :: es' → ∃ q qs' tb, qs = q :: qs' ∧ Opened l i e.number q.2.1 tb) := by
  intro es
  induction es with
  | nil => intro _; exact ⟨[], [], rfl, rfl, rfl, by simp, by simp, fun _ _ _ _ _ => Iff.rfl, rfl, by simp, by simp⟩
  | cons e es ih =>
    intro he
    obtain ⟨cs, qs, h1, h2, h3, h4, h5, h6, h7, h8, _⟩ := ih (fun x hx => he x (by simp [hx]))
    have hE := he e (by simp)
    obtain ⟨b, tb, ob⟩ := number_opened h hE.number
    refine ⟨e.conjunctions.map (fun c => (c.1, c.2, [.conj (form c.2)])) ++ (e.gap, e.number.text, b) :: cs,
      (e.conjunctions.map (fun c => form c.2), b, e.number.value) :: qs, ?_, ?_, ?_, ?_, ?_, ?_, ?_, ?_, ?_⟩
    · rw [List.flatMap_append, List.flatMap_map, List.flatMap_cons, h1, List.flatMap_cons]
      simp
    · rw [List.flatMap_append, List.flatMap_map, List.flatMap_cons, h2, List.flatMap_cons]
      have : ∀ l : List (PyStr × PyStr), l.flatMap (fun c => [RunItem.conj (form c.2)]) = (l.map (fun c => form c.2)).map .conj := by
        intro l; induction l with
        | nil => rfl
        | cons a l ih => rw [List.flatMap_cons, ih]; rfl
      rw [this]; simp
    · rw [List.flatMap_cons, h3, List.flatMap_cons]
    · intro c hc
      rcases List.mem_append.mp hc with hc | hc
      · obtain ⟨c', hc', rfl⟩ := List.mem_map.mp hc
        obtain ⟨hw, hk⟩ := hE.conjunctions c' hc'
        exact ⟨hw, conjunction_chunk h.tidy hk⟩
      · rcases List.mem_cons.mp hc with rfl | hc
        · exact ⟨hE.gap, ob.chunk⟩
        · exact h4 c hc
    · intro q hq
      rcases List.mem_cons.mp hq with rfl | hq
      · exact ob.piece
      · exact h5 q hq
    · intro x a ta hx oa
      show (_ ∧ NotContinued p l e.number es) ↔ (_ ∧ LinkedApartOf i b qs)
      rw [continued_iff h hx hE.number oa ob, h6 e.number b tb hE.number ob]
    · rw [List.map_cons, List.map_cons, h7]
    · intro q hq
      rcases List.mem_cons.mp hq with rfl | hq
      · exact ⟨e, by simp, tb, ob⟩
      · obtain ⟨e', he', hb⟩ := h8 q hq
        exact ⟨e', by simp [he'], hb⟩
    · intro e0 es0 h0
      injection h0 with h0 _
      subst h0
      exact ⟨_, qs, tb, rfl, ob⟩

/-- **C94** Numbers written one after another, with white space and possibly conjunctions between them, are converted each on its own, and
the conjunctions are kept (in their comparison form), if no number together with the first word of the next one is a number. -/
theorem c94_linked (p : Package) (l : PyStr) (i : Info) (h : Knows p l i) (x : NumberText) (hx : IsNumberText p l i x) (es : List Link)
    (he : ∀ e ∈ es, IsLink p l i e) (ha : NotContinued p l x es) :
    parseIn p (linkedText x es) (some l) =
      .ok (spaced (decDigits x.value :: es.flatMap (fun e => e.conjunctions.map (fun c => form c.2) ++ [decDigits e.number.value]))) := by
  obtain ⟨a, ta, oa⟩ := number_opened h hx
  obtain ⟨cs, qs, h1, h2, h3, h4, h5, h6, _, _, _⟩ := links_chunks h es he
  obtain ⟨more, h7, h8, _⟩ := chunks_tokensOf cs x.text a _ oa.tokens oa.run oa.chunk h4
  rw [h1] at h7
  rw [h2, List.cons_append] at h8
  rw [List.cons_append] at h7
  rw [← h3]
  exact parse_runOf h h7 hx.first h8 (cut_linkedOf qs a x.value oa.piece h5 ((h6 x a ta hx oa).mp ha))

/-- The texts of numbers with nothing but white space between them. -/
def plainLinks (xs : List (PyStr × NumberText)) : List Link := xs.map (fun x => ⟨[], x.1, x.2⟩)

/-- **C94** In particular, several numbers with only white space between them become the same numbers with single spaces between them. -/
theorem c94_apart (p : Package) (l : PyStr) (i : Info) (h : Knows p l i) (x : NumberText) (hx : IsNumberText p l i x)
    (xs : List (PyStr × NumberText)) (hs : ∀ y ∈ xs, WhiteSpace y.1 ∧ IsNumberText p l i y.2) (ha : NotContinued p l x (plainLinks xs)) :
    parseIn p (x.text ++ xs.flatMap (fun y => y.1 ++ y.2.text)) (some l) = .ok (spaced ((x :: xs.map (fun y => y.2)).map (fun y => decDigits y.value))) := by
  have := c94_linked p l i h x hx (plainLinks xs) (by
    intro e he
    obtain ⟨y, hy, rfl⟩ := List.mem_map.mp he
    exact ⟨by simp, (hs y hy).1, (hs y hy).2⟩) ha
  unfold linkedText plainLinks at this
  rw [List.flatMap_map, List.flatMap_map] at this
  rw [show x.text ++ xs.flatMap (fun y => y.1 ++ y.2.text) = x.text ++ xs.flatMap (fun y => ([] : List (PyStr × PyStr)).flatMap (fun c => c.1 ++ c.2) ++ y.1 ++ y.2.text) from rfl]
  rw [this, List.map_cons, List.map_map]
  congr 3
  clear this ha hs
  induction xs with
  | nil => rfl
  | cons y xs ih => rw [List.flatMap_cons, ih]; rfl

/-- **C94** Such a text is no number for `parse_number`.  Only the first two numbers matter for this. -/
theorem c94_number (p : Package) (l : PyStr) (i : Info) (h : Knows p l i) (x : NumberText) (hx : IsNumberText p l i x) (e : Link)
    (es : List Link) (he : ∀ e' ∈ e :: es, IsLink p l i e') (hq : ∀ e' ∈ e :: es, ∀ c ∈ e'.conjunctions, 0x27 ∉ c.2 ∧ 0x2019 ∉ c.2)
    (ha : parseNumberIn p (x.text ++ u!" " ++ e.number.first) (some l) = .ok none) :
    parseNumberIn p (linkedText x (e :: es)) (some l) = .ok none := by
  obtain ⟨a, ta, oa⟩ := number_opened h hx
  have hE := he e (by simp)
  obtain ⟨cs, qs, h1, h2, _, h4, _, _, _, _, h9⟩ := links_chunks h (e :: es) he
  obtain ⟨q, qs', tb, rfl, ob⟩ := h9 e es rfl
  have hj := (continued_iff h hx hE.number oa ob).mp ha
  obtain ⟨more, h10, h11, _⟩ := chunks_tokensOf cs x.text a _ oa.tokens oa.run oa.chunk h4
  rw [h1, List.cons_append] at h10
  rw [h2, List.cons_append] at h11
  have hon := runTokens_onlyOf h11
  have hpos := (runTokens_factsOf h.tidy h11).2.2
  have hgs : ∀ g, WhiteSpace g → 0x27 ∉ g ∧ 0x2019 ∉ g := by
    intro g hg
    constructor
    · intro hm; have := hg.2 _ hm; revert this; decide
    · intro hm; have := hg.2 _ hm; revert this; decide
  have hap : 0x27 ∉ linkedText x (e :: es) ∧ 0x2019 ∉ linkedText x (e :: es) := by
    have k : ∀ c, (∀ y, IsNumberText p l i y → c ∉ y.text) → (∀ g, WhiteSpace g → c ∉ g) → (∀ e' ∈ e :: es, ∀ d ∈ e'.conjunctions, c ∉ d.2) →
        c ∉ linkedText x (e :: es) := by
      intro c k1 k2 k3 hc
      unfold linkedText at hc
      rcases List.mem_append.mp hc with hc | hc
      · exact k1 x hx hc
      · obtain ⟨e', he', hc⟩ := List.mem_flatMap.mp hc
        rcases List.mem_append.mp hc with hc | hc
        · rcases List.mem_append.mp hc with hc | hc
          · obtain ⟨d, hd, hc⟩ := List.mem_flatMap.mp hc
            rcases List.mem_append.mp hc with hc | hc
            · exact k2 _ ((he e' he').conjunctions d hd).1 hc
            · exact k3 e' he' d hd hc
          · exact k2 _ (he e' he').gap hc
        · exact k1 _ (he e' he').number hc
    exact ⟨k _ (fun y hy => hy.noApostrophe.1) (fun g hg => (hgs g hg).1) (fun e' he' d hd => (hq e' he' d hd).1),
      k _ (fun y hy => hy.noApostrophe.2) (fun g hg => (hgs g hg).2) (fun e' he' d hd => (hq e' he' d hd).2)⟩
  have hwi : WordInput (linkedText x (e :: es)) := by
    unfold linkedText
    rw [List.flatMap_cons]
    have hbl : ∀ r : PyStr, ¬ Blank (r ++ e.number.text ++ es.flatMap (fun e => e.conjunctions.flatMap (fun c => c.1 ++ c.2) ++ e.gap ++ e.number.text)) :=
      fun r hb => hE.number.wordInput.1 (fun c hc => hb c (by simp [hc]))
    cases hcj : e.conjunctions with
    | nil =>
      cases hg : e.gap with
      | nil => exact absurd hg hE.gap.1
      | cons c g =>
        have := wordInput_around hx.wordInput (hE.gap.2 c (by rw [hg]; simp)) (hbl g)
        simpa using this
    | cons d ds =>
      have hd := (hE.conjunctions d (by rw [hcj]; simp)).1
      cases hg : d.1 with
      | nil => exact absurd hg hd.1
      | cons c g =>
        have := wordInput_around hx.wordInput (hd.2 c (by rw [hg]; simp)) (hbl (g ++ d.2 ++ ds.flatMap (fun c => c.1 ++ c.2) ++ e.gap))
        simpa [hg] using this
  rw [parseNumberIn_with h.distinct h.mem, c80_none i h.tidy h.moderate l _ _ _ hwi (by rw [noApostrophes hap]; exact h10)]
  rintro ⟨n, ws, _, _, k1, k2⟩
  rw [onlyWordsOf_unique h.tidy k1 hon] at k2
  -- the first word of the second number comes directly after the words of the first
  obtain ⟨k, v, r, e1, _⟩ := ob.head
  have hsplit : runWords (a ++ (q :: qs').flatMap (fun q => q.1.map .conj ++ q.2.1)) =
      (runWords a ++ [(k, v)]) ++ runWords (r ++ qs'.flatMap (fun q => q.1.map .conj ++ q.2.1)) := by
    rw [List.flatMap_cons, runWords_append, runWords_append, runWords_append, runWords_conj, e1, runWords_append]
    simp [runWords]
  rw [hsplit] at k2 hpos
  obtain ⟨m, hm, _⟩ := readAs_prefix hpos k2
  exact hj ⟨k, v, r, m, e1, hm⟩

theorem cut_elementsOf {i : Info} {is : List RunItem} {xs : List PyStr} (h : CutOf i is xs) : ∀ x ∈ xs, (∃ n, x = decDigits n) ∨ .conj x ∈ is := by
  induction h with
  | @last is n hr => intro x hx; simp only [List.mem_cons, List.not_mem_nil, or_false] at hx; exact Or.inl ⟨n, hx⟩
  | @more is rest cs n k v xs _ _ _ _ ih =>
    intro x hx
    rw [List.cons_append] at hx
    rcases List.mem_cons.mp hx with hx | hx
    · exact Or.inl ⟨n, hx⟩
    · rcases List.mem_append.mp hx with hx | hx
      · exact Or.inr (by simp [hx])
      · rcases ih x hx with h | h
        · exact Or.inl h
        · exact Or.inr (List.mem_append_right _ h)

theorem runTokens_conjOf {i : Info} {ts : List PyStr} {is : List RunItem} (h : RunTokensOf i ts is) : ∀ f, .conj f ∈ is → f ∈ i.skipTokens := by
  induction h with
  | nil => intro f hf; cases hf
  | word _ _ ih =>
    intro f hf
    rcases List.mem_cons.mp hf with hf | hf
    · cases hf
    · exact ih f hf
  | @conj t ts is hs _ ih =>
    intro f hf
    rcases List.mem_cons.mp hf with hf | hf
    · cases hf; exact hs
    · exact ih f hf
  | blank _ _ ih => exact ih

/-- The number does not begin with a word for zero, nor with a scale word for one. -/
def BeginsProperly (i : Info) (x : NumberText) : Prop := ∀ k v, WordOf i k v x.first → 0 < v ∧ (k = .scale → 2 ≤ v)

/-- **C94** For numbers that do not begin with a word for zero, and conjunctions without spaces, the condition is also necessary: if the
result is the numbers with single spaces between them, then no number is continued by the first word of the next one. -/
theorem c94_exact (p : Package) (l : PyStr) (i : Info) (h : Knows p l i) (hc : ∀ f ∈ i.skipTokens, 0x20 ∉ f) (x : NumberText)
    (hx : IsNumberText p l i x) (xs : List (PyStr × NumberText)) (hs : ∀ y ∈ xs, WhiteSpace y.1 ∧ IsNumberText p l i y.2)
    (hb : ∀ y ∈ x :: xs.map (fun y => y.2), BeginsProperly i y) :
    parseIn p (x.text ++ xs.flatMap (fun y => y.1 ++ y.2.text)) (some l) = .ok (spaced ((x :: xs.map (fun y => y.2)).map (fun y => decDigits y.value))) ↔
      NotContinued p l x (plainLinks xs) := by
  refine ⟨fun hp => ?_, c94_apart p l i h x hx xs hs⟩
  obtain ⟨a, ta, oa⟩ := number_opened h hx
  have he : ∀ e ∈ plainLinks xs, IsLink p l i e := by
    intro e he
    obtain ⟨y, hy, rfl⟩ := List.mem_map.mp he
    exact ⟨by simp, (hs y hy).1, (hs y hy).2⟩
  obtain ⟨cs, qs, h1, h2, h3, h4, h5, h6, h7, h8, h9⟩ := links_chunks h (plainLinks xs) he
  obtain ⟨more, h10, h11, _⟩ := chunks_tokensOf cs x.text a _ oa.tokens oa.run oa.chunk h4
  have et : (plainLinks xs).flatMap (fun e => e.conjunctions.flatMap (fun c => c.1 ++ c.2) ++ e.gap ++ e.number.text) =
      xs.flatMap (fun y => y.1 ++ y.2.text) := by
    unfold plainLinks
    rw [List.flatMap_map]; rfl
  rw [h1, et, List.cons_append] at h10
  have hnil : ∀ q ∈ qs, q.1 = [] := by
    intro q hq
    have : q.1 ∈ qs.map (fun q => q.1) := List.mem_map.mpr ⟨q, hq, rfl⟩
    rw [h7] at this
    obtain ⟨e, he, e2⟩ := List.mem_map.mp this
    obtain ⟨y, _, rfl⟩ := List.mem_map.mp he
    simpa using e2.symm
  have conv : ∀ (qs : List (List PyStr × List RunItem × Nat)), (∀ q ∈ qs, q.1 = []) → ∀ a n,
      (qs.flatMap (fun q => q.1.map .conj ++ q.2.1) = pieceItems (qs.map (fun q => q.2)) ∧
        qs.flatMap (fun q => q.1 ++ [decDigits q.2.2]) = (qs.map (fun q => q.2)).map (fun q => decDigits q.2)) ∧
      (AllApartOf i ((a, n) :: qs.map (fun q => q.2)) → LinkedApartOf i a qs) := by
    intro qs
    induction qs with
    | nil => intro _ a n; exact ⟨⟨rfl, rfl⟩, fun _ => trivial⟩
    | cons q qs ih =>
      intro hq a n
      obtain ⟨⟨i1, i2⟩, i3⟩ := ih (fun y hy => hq y (by simp [hy])) q.2.1 q.2.2
      refine ⟨⟨?_, ?_⟩, ?_⟩
      · rw [List.flatMap_cons, i1, hq q (by simp)]; rfl
      · rw [List.flatMap_cons, i2, hq q (by simp)]; rfl
      · rintro ⟨j1, j2⟩
        exact ⟨j1, i3 j2⟩
  obtain ⟨⟨c1, c2⟩, c3⟩ := conv qs hnil a x.value
  rw [h2, c1, List.cons_append] at h11
  rw [c2] at h3
  have eitems : a ++ pieceItems (qs.map (fun q => q.2)) = pieceItems ((a, x.value) :: qs.map (fun q => q.2)) := rfl
  have edig : (x :: xs.map (fun y => y.2)).map (fun y => decDigits y.value) = ((a, x.value) :: qs.map (fun q => q.2)).map (fun q => decDigits q.2) := by
    rw [List.map_cons, List.map_cons, h3]
    unfold plainLinks
    rw [List.flatMap_map, List.map_map]
    congr 1
    clear hs hb hp he h1 h3 h6 h7 h8 h9 et h10
    induction xs with
    | nil => rfl
    | cons y xs ih => rw [List.flatMap_cons, ← ih]; rfl
  rw [eitems] at h11
  obtain ⟨k, v, r, er, _⟩ := oa.head
  obtain ⟨zs, hz⟩ := cut_existsOf (I := i) k v (r ++ pieceItems (qs.map (fun q => q.2)))
  have hz' : CutOf i (pieceItems ((a, x.value) :: qs.map (fun q => q.2))) zs := by
    rw [pieceItems_cons, er]; exact hz
  rw [parse_runOf h h10 hx.first h11 hz', edig] at hp
  injection hp with hp
  have e := spaced_inj (fun y hy => by
      rcases cut_elementsOf hz' y hy with ⟨n, rfl⟩ | hcj
      · exact digits_noSpace n
      · exact hc _ (runTokens_conjOf h11 y hcj))
    (fun y hy => by
      obtain ⟨q, _, rfl⟩ := List.mem_map.mp hy
      exact digits_noSpace _) (cut_neOf hz') (by simp) hp
  rw [e] at hz'
  refine (h6 x a ta hx oa).mpr (c3 (apart_of_cutOf _ ?_ ?_ hz'))
  · intro q hq
    rcases List.mem_cons.mp hq with rfl | hq
    · exact oa.piece
    · obtain ⟨q', hq', rfl⟩ := List.mem_map.mp hq
      exact h5 q' hq'
  · have pr : ∀ {y : NumberText} {b : List RunItem} {tb : List PyStr}, BeginsProperly i y → Opened l i y b tb → Proper b := by
      intro y b tb hy ob
      obtain ⟨k, v, r, e, hw⟩ := ob.head
      exact ⟨k, v, r, e, (hy k v hw).1, (hy k v hw).2⟩
    intro q hq
    rcases List.mem_cons.mp hq with rfl | hq
    · exact pr (hb x (by simp)) oa
    · obtain ⟨q', hq', rfl⟩ := List.mem_map.mp hq
      obtain ⟨e', he', tb, ob⟩ := h8 q' hq'
      obtain ⟨y, hy, rfl⟩ := List.mem_map.mp he'
      exact pr (hb y.2 (by simp; exact Or.inr ⟨_, hy⟩)) ob

theorem readAs_closed {i : Info} {ws : List (Class × Nat)} {d : Nat} {k0 : Class} (hk0 : k0 = .unit ∨ k0 = .direct) {k : Class} {v n : Nat}
    (h : ReadAs i (ws ++ [(k0, d)] ++ [(k, v)]) n) : k = .scale := by
  obtain ⟨c, o, q, h1, rfl⟩ := h
  generalize hw : ws ++ [(k0, d)] ++ [(k, v)] = ws' at h1
  have key : ∀ {ws' : List (Class × Nat)} {w : Class × Nat}, ws ++ [(k0, d)] ++ [(k, v)] = ws' ++ [w] → ws' = ws ++ [(k0, d)] ∧ w = (k, v) := by
    intro ws' w e
    have := List.append_inj' e rfl
    exact ⟨this.1.symm, by simpa using this.2.symm⟩
  cases h1 with
  | start => simp at hw
  | add hr hk hm =>
    obtain ⟨rfl, e⟩ := key hw
    cases e
    rcases hm with hm | ⟨ws', k', v', e, hf⟩
    · simp at hm
    · have := List.append_inj' e rfl
      have h2 := this.2
      simp only [List.cons.injEq, Prod.mk.injEq, and_true] at h2
      rw [← h2.1] at hf
      rcases hk0 with rfl | rfl <;> cases hf
  | multiplyAll => obtain ⟨_, e⟩ := key hw; cases e; rfl
  | multiplyGroup => obtain ⟨_, e⟩ := key hw; cases e; rfl
  | closeGroup => obtain ⟨_, e⟩ := key hw; cases e; rfl

/-- **C94** A number whose last word is a unit word ("three") or a direct one ("twelve") is continued by scale words only. -/
theorem c94_closed (p : Package) (l : PyStr) (i : Info) (h : Knows p l i) (x y : NumberText) (hx : IsNumberText p l i x)
    (hy : IsNumberText p l i y) (k : Class) (hk : k = .unit ∨ k = .direct) (ts : List PyStr) (ht : Tokens l x.text ts) (hl : LastOfClass i k ts)
    (k' : Class) (v' : Nat) (hk' : k' ≠ .scale) (hw : WordOf i k' v' y.first) :
    parseNumberIn p (x.text ++ u!" " ++ y.first) (some l) = .ok none := by
  obtain ⟨a, ta, oa⟩ := number_opened h hx
  obtain ⟨b, tb, ob⟩ := number_opened h hy
  rw [continued_iff h hx hy oa ob]
  have e : ts = x.first :: ta := ((tokens_iff _ _ _).mp ht).trans ((tokens_iff _ _ _).mp oa.tokens).symm
  obtain ⟨pre, t, bl, v, e1, hw1, hbl⟩ := hl
  have hrun := oa.run
  rw [← e, e1] at hrun
  obtain ⟨u, z, h1, h2, e2⟩ := runTokens_splitOf hrun
  have e3 : ∃ w, runWords a = w ++ [(k, v)] := by
    cases h2 with
    | @word _ k2 v2 _ _ hw2 h2 =>
      have ek : k = k2 := h.tidy.oneClass k k2 _ (last_lists hw1) (last_lists hw2)
      subst ek
      have ev : v = v2 := by
        have h1 := normalize_get_some.mpr hw1
        rw [normalize_get_some.mpr hw2] at h1
        injection h1 with h1; exact h1.symm
      subst ev
      rw [blanks_itemsOf h.tidy hbl h2] at e2
      exact ⟨runWords u, by rw [e2, runWords_append]; rfl⟩
    | conj hs _ => exact absurd hs (cardinal_not_skipOf h.tidy (last_listed hw1))
    | blank hs _ => exact absurd hs (cardinal_not_blankOf h.tidy (last_listed hw1))
  obtain ⟨w, e3⟩ := e3
  rintro ⟨k2, v2, r, m, e4, hm⟩
  obtain ⟨k3, v3, r3, e5, hw3⟩ := ob.head
  rw [e5] at e4
  injection e4 with e4 _
  injection e4 with e6 e7
  have e8 : k' = k3 := h.tidy.oneClass k' k3 _ (last_lists hw) (last_lists hw3)
  rw [e3] at hm
  exact hk' (by rw [e8, e6]; exact readAs_closed hk hm)

/-! ## Which data modules -/

/-- **C94** No conjunction of the languages of the repository, nor of the others for which the repository has a data module, contains a
space. -/
theorem c94_conjunctions : (∀ l ∈ supported, ∀ f ∈ (file l).skipTokens, 0x20 ∉ f) ∧
    ∀ e ∈ otherLanguages, ∀ f ∈ (tablesOf e.2.2.2 true).skipTokens, 0x20 ∉ f := ⟨conj_solid, by decide +kernel⟩

/-! ## Examples -/

/-- The languages of the example -/
def apartPackage : Package := [(u!"xx", ordinalVocabulary), (u!"pt", portuguese)]

theorem apart_numbers : ∀ x ∈ ([⟨u!"duzentos  vinte três", u!"duzentos", 223⟩, ⟨u!"doze", u!"doze", 12⟩, ⟨u!"vinte", u!"vinte", 20⟩] : List NumberText),
    IsNumberText apartPackage u!"pt" portuguese x := by
  have hm : ∀ t ∈ [u!"duzentos", u!"três", u!"doze", u!"vinte"], CardinalOf portuguese t := by
    intro t ht
    apply mem_listed.mp
    revert ht; revert t; decide +kernel
  intro x hx
  simp only [List.mem_cons, List.not_mem_nil, or_false] at hx
  rcases hx with rfl | rfl | rfl
  · exact ⟨⟨[u!" ", [], u!" ", u!"vinte", u!" ", u!"três"], (tokens_iff _ _ _).mpr (by decide +kernel),
      ⟨[u!"duzentos", u!" ", [], u!" ", u!"vinte", u!" "], u!"três", [], rfl, hm _ (by simp), by simp⟩⟩, hm _ (by simp), by decide,
      ⟨100, u!"uzentos  vinte três", by decide +kernel, by decide⟩, ⟨u!"duzentos  vinte trê", 115, by decide +kernel, by decide⟩,
      (wordInput_iff _).mpr (by decide +kernel), by decide +kernel⟩
  · exact ⟨⟨[], (tokens_iff _ _ _).mpr (by decide +kernel), ⟨[], u!"doze", [], rfl, hm _ (by simp), by simp⟩⟩, hm _ (by simp), by decide,
      ⟨100, u!"oze", by decide +kernel, by decide⟩, ⟨u!"doz", 101, by decide +kernel, by decide⟩,
      (wordInput_iff _).mpr (by decide +kernel), by decide +kernel⟩
  · exact ⟨⟨[], (tokens_iff _ _ _).mpr (by decide +kernel), ⟨[], u!"vinte", [], rfl, hm _ (by simp), by simp⟩⟩, hm _ (by simp), by decide,
      ⟨118, u!"inte", by decide +kernel, by decide⟩, ⟨u!"vint", 101, by decide +kernel, by decide⟩,
      (wordInput_iff _).mpr (by decide +kernel), by decide +kernel⟩

/-- Three Portuguese numbers one after another -/
theorem c94_example : parseIn apartPackage u!"duzentos  vinte três doze \t vinte" (some u!"pt") = .ok u!"223 12 20" ∧
    parseNumberIn apartPackage u!"duzentos  vinte três doze \t vinte" (some u!"pt") = .ok none := by
  have hn := apart_numbers
  simp only [List.forall_mem_cons, List.not_mem_nil, false_implies, implies_true, and_true] at hn
  have ha : NotContinued apartPackage u!"pt" ⟨u!"duzentos  vinte três", u!"duzentos", 223⟩
      (plainLinks [(u!" ", ⟨u!"doze", u!"doze", 12⟩), (u!" \t ", ⟨u!"vinte", u!"vinte", 20⟩)]) := by
    refine ⟨?_, ?_, trivial⟩ <;> decide +kernel
  refine ⟨c94_apart apartPackage u!"pt" portuguese known_example.2 _ hn.1 [(u!" ", ⟨u!"doze", u!"doze", 12⟩), (u!" \t ", ⟨u!"vinte", u!"vinte", 20⟩)] ?_ ha, ?_⟩
  · simp only [List.forall_mem_cons, List.not_mem_nil, false_implies, implies_true, and_true]
    exact ⟨⟨⟨by simp, by decide⟩, hn.2.1⟩, ⟨by simp, by decide⟩, hn.2.2⟩
  · refine c94_number apartPackage u!"pt" portuguese known_example.2 _ hn.1 ⟨[], u!" ", ⟨u!"doze", u!"doze", 12⟩⟩ [⟨[], u!" \t ", ⟨u!"vinte", u!"vinte", 20⟩⟩] ?_ ?_ ha.1
    · simp only [List.forall_mem_cons, List.not_mem_nil, false_implies, implies_true, and_true]
      exact ⟨⟨by simp, ⟨by simp, by decide⟩, hn.2.1⟩, by simp, ⟨by simp, by decide⟩, hn.2.2⟩
    · simp

/-- The condition is needed: "duzentos vinte" followed by "três" is one number. -/
example : parseIn apartPackage u!"duzentos vinte três" (some u!"pt") = .ok u!"223" := by decide +kernel

/-- With a conjunction, in Spanish (as the parser has it) -/
example : parseIn repository u!"veinte Y doce" (some u!"es") = .ok u!"20 y 12" := by
  have hm : ∀ t ∈ [u!"veinte", u!"doce"], CardinalOf (file u!"es") t := by
    intro t ht
    apply mem_listed.mp
    revert ht; revert t; decide +kernel
  exact c94_linked repository u!"es" (file u!"es") (c92_supported.2 _ (by decide)) ⟨u!"veinte", u!"veinte", 20⟩
    ⟨⟨[], (tokens_iff _ _ _).mpr (by decide +kernel), ⟨[], u!"veinte", [], rfl, hm _ (by simp), by simp⟩⟩, hm _ (by simp), by decide,
      ⟨118, u!"einte", by decide +kernel, by decide⟩, ⟨u!"veint", 101, by decide +kernel, by decide⟩,
      (wordInput_iff _).mpr (by decide +kernel), by decide +kernel⟩
    [⟨[(u!" ", u!"Y")], u!" ", ⟨u!"doce", u!"doce", 12⟩⟩]
    (by
      simp only [List.forall_mem_cons, List.not_mem_nil, false_implies, implies_true, and_true]
      refine ⟨?_, ⟨by simp, by decide⟩, ?_⟩
      · simp only [List.forall_mem_cons, List.not_mem_nil, false_implies, implies_true, and_true]
        exact ⟨⟨by simp, by decide⟩, (tokens_iff _ _ _).mpr (by decide +kernel), List.elem_iff.mp (by decide +kernel)⟩
      · exact ⟨⟨[], (tokens_iff _ _ _).mpr (by decide +kernel), ⟨[], u!"doce", [], rfl, hm _ (by simp), by simp⟩⟩, hm _ (by simp), by decide,
          ⟨100, u!"oce", by decide +kernel, by decide⟩, ⟨u!"doc", 101, by decide +kernel, by decide⟩,
          (wordInput_iff _).mpr (by decide +kernel), by decide +kernel⟩)
    ⟨by decide +kernel, trivial⟩

end NumberParser.Props
