import Verif.Proofs.VocabularyOrdinal
import Verif.Spec.VocabularyNumeral

/-! Numerals, with any vocabulary (C93). -/

set_option linter.unusedSimpArgs false

namespace NumberParser
open Spec

/-- A new group may begin. -/
def Fresh (ws : List (Class × Nat)) : Prop := ws = [] ∨ ∃ ws' p, ws = ws' ++ [(.scale, p)]

theorem fresh_may {ws : List (Class × Nat)} (h : Fresh ws) {k : Class} (hk : k ≠ .scale) : MayContinue ws k := by
  rcases h with rfl | ⟨ws', p, rfl⟩
  · exact Or.inl rfl
  · refine Or.inr ⟨ws', .scale, p, rfl, ?_⟩
    cases k <;> first | rfl | exact absurd rfl hk

theorem small_reading {L : Nat} {ws ss : List (Class × Nat)} {c o v : Nat} {q : Option Nat} (h : Reading L ws c o q)
    (hm : ∀ k, k = .unit ∨ k = .direct ∨ k = .tens → MayContinue ws k) (hs : Small ss v) : Reading L (ws ++ ss) c (o + v) q := by
  cases hs with
  | unit v => exact .add h (by simp) (hm _ (by simp))
  | direct v => exact .add h (by simp) (hm _ (by simp))
  | tens v => exact .add h (by simp) (hm _ (by simp))
  | tensUnit t u =>
    have h1 := Reading.add (d := t) h (k := .tens) (by simp) (hm _ (by simp))
    have h2 := Reading.add (d := u) h1 (k := .unit) (by simp) (Or.inr ⟨ws, .tens, t, rfl, rfl⟩)
    rw [List.append_assoc, Nat.add_assoc] at h2
    exact h2

theorem simple_reading {L : Nat} {ws ss : List (Class × Nat)} {c o v : Nat} {q : Option Nat} (h : Reading L ws c o q)
    (hf : Fresh ws) (hs : Simple ss v) : Reading L (ws ++ ss) c (o + v) q := by
  have hm : ∀ k, k = .unit ∨ k = .direct ∨ k = .tens → MayContinue ws k := by
    rintro k (rfl | rfl | rfl) <;> exact fresh_may hf (by simp)
  cases hs with
  | small hs => exact small_reading h hm hs
  | hundreds v => exact .add h (by simp) (fresh_may hf (by simp))
  | @hundredsSmall x ss v hs =>
    have h1 := Reading.add (d := x) h (k := .hundreds) (by simp) (fresh_may hf (by simp))
    have h2 := small_reading h1 (by rintro k (rfl | rfl | rfl) <;> exact Or.inr ⟨ws, .hundreds, x, rfl, rfl⟩) hs
    rw [List.append_assoc, Nat.add_assoc] at h2
    exact h2

theorem group_reading {L : Nat} (hL : 100 ≤ L) {ws gs : List (Class × Nat)} {c g : Nat} {q : Option Nat} (h : Reading L ws c 0 q)
    (hf : Fresh ws) (hq : ∀ q', q = some q' → 100 < q') (hg : Group gs g) : Reading L (ws ++ gs) c g q := by
  cases hg with
  | simple hs => simpa using simple_reading h hf hs
  | @hundred cs rs v r hc hr =>
    have hm : ∀ k, k = .unit ∨ k = .direct ∨ k = .tens → MayContinue ws k := by
      rintro k (rfl | rfl | rfl) <;> exact fresh_may hf (by simp)
    have h1 : Reading L (ws ++ cs ++ [(.scale, 100)]) c (v * 100) q := by
      rcases hc with ⟨rfl, rfl⟩ | ⟨hs, h0, h1⟩
      · have := Reading.multiplyGroup (p := 100) h (Or.inr (Or.inr rfl)) (by omega) hq hL
        simpa using this
      · have h2 := small_reading h hm hs
        rw [Nat.zero_add] at h2
        have := Reading.multiplyGroup (p := 100) h2 (Or.inr (Or.inr rfl)) h1 hq hL
        rwa [show max v 1 = v by omega] at this
    rw [show ws ++ (cs ++ (Class.scale, 100) :: rs) = ws ++ cs ++ [(.scale, 100)] ++ rs by simp]
    rcases hr with ⟨rfl, rfl⟩ | hr
    · simpa using h1
    · exact small_reading h1 (by rintro k (rfl | rfl | rfl) <;> exact Or.inr ⟨_, .scale, 100, rfl, rfl⟩) hr

/-- The first block. -/
theorem block_first {L : Nat} (hL : 100 ≤ L) {bs : List (Class × Nat)} {b : Nat} (hb : Block L bs b) :
    ∃ c o q, Reading L bs c o q ∧ c + o = b := by
  have hs : Reading L [] 0 0 none := .start
  have hq : ∀ q', (none : Option Nat) = some q' → 100 < q' := by intro q' h; cases h
  cases hb with
  | group hg => exact ⟨0, b, none, by simpa using group_reading hL hs (Or.inl rfl) hq hg, by omega⟩
  | @thousands cs rs v t r hc ht htl hr =>
    have h1 : ∃ c o q, Reading L (cs ++ [(.scale, t)]) c o q ∧ c + o = v * t := by
      rcases hc with ⟨rfl, rfl⟩ | ⟨hg, h0, hv⟩
      · have := Reading.multiplyGroup (p := t) hs (Or.inl rfl) (by omega) (by intro q' h; cases h) htl
        exact ⟨_, _, _, by simpa using this, by omega⟩
      · have h2 := group_reading hL hs (Or.inl rfl) hq hg
        rw [List.nil_append] at h2
        by_cases he : v < t
        · exact ⟨_, _, _, .multiplyAll h2 (by omega) (by omega) (by omega), by rw [Nat.zero_add, Nat.add_zero]⟩
        · have := Reading.multiplyGroup (p := t) h2 (Or.inr (Or.inl (by omega))) hv (by intro q' h; cases h) htl
          rw [show max v 1 = v by omega] at this
          exact ⟨_, _, _, this, by omega⟩
    obtain ⟨c, o, q, h1, h2⟩ := h1
    rw [show cs ++ (Class.scale, t) :: rs = cs ++ [(.scale, t)] ++ rs by simp]
    rcases hr with ⟨rfl, rfl⟩ | hr
    · exact ⟨c, o, q, by simpa using h1, by omega⟩
    · exact ⟨c, o + r, q, simple_reading h1 (Or.inr ⟨_, _, rfl⟩) hr, by omega⟩

theorem lead_reading {L : Nat} (hL : 100 ≤ L) {bs : List (Class × Nat)} {b : Nat} (hb : Lead L bs b) :
    ∃ c o q, Reading L bs c o q ∧ c + o = b := by
  cases hb with
  | block h => exact block_first hL h
  | @thousands cs rs v t r hc h0 hv ht _ hr =>
    have h2 := group_reading hL (Reading.start (limit := L)) (Or.inl rfl) (by intro q' h; cases h) hc
    rw [List.nil_append] at h2
    have h3 := Reading.multiplyAll (p := t) h2 (by omega) (by omega) (by omega)
    have h4 := group_reading hL h3 (Or.inr ⟨_, _, rfl⟩) (by intro q' h; injection h with h; omega) hr
    rw [List.append_assoc] at h4
    exact ⟨_, _, _, h4, by rw [Nat.zero_add]⟩

/-- A block behind scale words. -/
theorem block_later {L : Nat} (hL : 100 ≤ L) {ws bs : List (Class × Nat)} {c q b : Nat} (h : Reading L ws c 0 (some q)) (hf : Fresh ws)
    (hq : L < q) (hc : q ≤ c) (hb : Block L bs b) : Reading L (ws ++ bs) c b (some q) := by
  have hq' : ∀ q', some q = some q' → 100 < q' := by intro q' h; injection h with h; omega
  cases hb with
  | group hg => exact group_reading hL h hf hq' hg
  | @thousands cs rs v t r hcs ht htl hr =>
    have hqt : ∀ q', some q = some q' → t < q' := by intro q' h; injection h with h; omega
    have h1 : Reading L (ws ++ cs ++ [(.scale, t)]) c (v * t) (some q) := by
      rcases hcs with ⟨rfl, rfl⟩ | ⟨hg, h0, hv⟩
      · have := Reading.multiplyGroup (p := t) h (Or.inr (Or.inl (by omega))) (by omega) hqt htl
        simpa using this
      · have h2 := group_reading hL h hf hq' hg
        have := Reading.multiplyGroup (p := t) h2 (Or.inr (Or.inl (by omega))) hv hqt htl
        rwa [show max v 1 = v by omega] at this
    rw [show ws ++ (cs ++ (Class.scale, t) :: rs) = ws ++ cs ++ [(.scale, t)] ++ rs by simp]
    rcases hr with ⟨rfl, rfl⟩ | hr
    · simpa using h1
    · exact simple_reading h1 (Or.inr ⟨_, _, rfl⟩) hr

theorem scaled_reading {L : Nat} (hL : 100 ≤ L) {ws : List (Class × Nat)} {n q : Nat} (h : Scaled L ws n q) :
    Reading L ws n 0 (some q) ∧ L < q ∧ q ≤ n ∧ Fresh ws := by
  induction h with
  | @first cs v p hp hc =>
    rcases hc with ⟨rfl, rfl⟩ | ⟨hb, h0, hv⟩
    · have := Reading.closeGroup (p := p) (Reading.start (limit := L)) (Or.inl rfl) (by omega) (by intro q' h; cases h) hp
      exact ⟨by simpa using this, hp, by omega, Or.inr ⟨_, _, rfl⟩⟩
    · obtain ⟨c, o, q, h1, h2⟩ := lead_reading hL hb
      have := Reading.multiplyAll (p := p) h1 (by omega) (by omega) (by omega)
      rw [h2] at this
      exact ⟨this, hp, Nat.le_mul_of_pos_left p h0, Or.inr ⟨_, _, rfl⟩⟩
  | @next ws cs n v p q _ hp hpq hc ih =>
    obtain ⟨h1, h2, h3, h4⟩ := ih
    have hqp : ∀ q', some q = some q' → p < q' := by intro q' h; injection h with h; omega
    have hle : ∀ {x : Nat}, 0 < x → p ≤ n + x * p := fun h0 => Nat.le_trans (Nat.le_mul_of_pos_left p h0) (Nat.le_add_left _ _)
    rcases hc with ⟨rfl, rfl⟩ | ⟨hb, h0, hv⟩
    · have := Reading.closeGroup (p := p) h1 (Or.inr (Or.inl (by omega))) (by omega) hqp hp
      exact ⟨by simpa using this, hp, hle (by omega), Or.inr ⟨_, _, rfl⟩⟩
    · have h5 := block_later hL h1 h4 h2 h3 hb
      have := Reading.closeGroup (p := p) h5 (Or.inr (Or.inl (by omega))) hv hqp hp
      rw [show max v 1 = v by omega] at this
      exact ⟨this, hp, hle h0, Or.inr ⟨_, _, rfl⟩⟩

theorem numeral_reading {L : Nat} (hL : 100 ≤ L) {ws : List (Class × Nat)} {n : Nat} (h : CardinalName L ws n) :
    ∃ c o q, Reading L ws c o q ∧ n = c + o := by
  cases h with
  | block hb =>
    obtain ⟨c, o, q, h1, h2⟩ := lead_reading hL hb
    exact ⟨c, o, q, h1, h2.symm⟩
  | scaled hs => exact ⟨n, 0, _, (scaled_reading hL hs).1, rfl⟩
  | both hs hb =>
    obtain ⟨h1, h2, h3, h4⟩ := scaled_reading hL hs
    exact ⟨_, _, _, block_later hL h1 h4 h2 h3 hb, rfl⟩

theorem limitOf_ge (i : Info) : 100 ≤ limitOf i := by unfold limitOf; split <;> omega

theorem numeral_readAs {i : Info} {ws : List (Class × Nat)} {n : Nat} (h : CardinalName (limitOf i) ws n) :
    ReadAs i ws n := numeral_reading (limitOf_ge i) h

/-! ### Systematic names -/

theorem valued_append {i : Info} {a b : List PyStr} {x y : List (Class × Nat)} (h : Valued i a x) (h' : Valued i b y) :
    Valued i (a ++ b) (x ++ y) := by
  induction h with
  | nil => exact h'
  | cons hw _ ih => exact .cons hw ih

theorem valued_one {i : Info} {w : PyStr} {k : Class} {v : Nat} (h : WordOf i k v w) : Valued i [w] [(k, v)] := .cons h .nil

/-- Scaled parts `m` before, and the rest `n`. -/
theorem names_parts {i : Info} {N : NumberNames} : ∀ (ps : List Nat) (top n m : Nat) (ws0 : List PyStr) (cs0 : List (Class × Nat)),
    Names i N top ps → n < top → 0 < m + n → Valued i ws0 cs0 →
    (cs0 = [] ∧ m = 0 ∨ ∃ q, top ≤ q ∧ Scaled (limitOf i) cs0 m q) →
    ∃ cs, Valued i (ws0 ++ N.parts ps n) cs ∧ CardinalName (limitOf i) cs (m + n) := by
  intro ps
  induction ps with
  | nil =>
    intro top n m ws0 cs0 hN hn hpos hv h
    unfold NumberNames.parts
    by_cases h0 : n = 0
    · subst h0
      rw [if_pos rfl, List.append_nil]
      rcases h with ⟨_, h⟩ | ⟨q, _, h⟩
      · omega
      · exact ⟨cs0, hv, .scaled h⟩
    · rw [if_neg h0]
      obtain ⟨cs, h1, h2⟩ := hN n hn
      refine ⟨cs0 ++ cs, valued_append hv h1, ?_⟩
      rcases h with ⟨rfl, rfl⟩ | ⟨q, _, h⟩
      · rw [Nat.zero_add]; exact .block (.block h2)
      · exact .both h h2
  | cons p ps ih =>
    intro top n m ws0 cs0 hN hn hpos hv h
    obtain ⟨hp1, hp2, hp3, hps, hc⟩ := hN
    have hp0 : 0 < p := by omega
    have hdm : p * (n / p) + n % p = n := Nat.div_add_mod n p
    have hlt : n % p < p := Nat.mod_lt n hp0
    unfold NumberNames.parts
    by_cases h0 : n / p = 0
    · rw [if_pos h0, List.nil_append]
      have e : n % p = n := by rw [h0, Nat.mul_zero, Nat.zero_add] at hdm; exact hdm
      rw [e]
      refine ih p n m ws0 cs0 hps (by rw [← e]; exact hlt) hpos hv ?_
      rcases h with h | ⟨q, hq, h⟩
      · exact Or.inl h
      · exact Or.inr ⟨q, by omega, h⟩
    · rw [if_neg h0, ← List.append_assoc]
      have hg0 : 0 < n / p := Nat.pos_of_ne_zero h0
      have hg : n / p * p < top := by rw [Nat.mul_comm]; omega
      have hgp : n / p < p := Nat.div_lt_of_lt_mul (by omega)
      obtain ⟨cs, h1, h2⟩ := hc (n / p) hg0 hg
      have e : m + n = (m + n / p * p) + n % p := by rw [Nat.mul_comm]; omega
      have hpos' : 0 < n / p * p := Nat.mul_pos hg0 hp0
      rw [e]
      refine ih p (n % p) _ _ _ hps hlt (by omega) (valued_append hv h1) (Or.inr ⟨p, Nat.le_refl p, ?_⟩)
      have h2' : cs = [] ∧ n / p = 1 ∨ Block (limitOf i) cs (n / p) ∧ 0 < n / p ∧ n / p < p :=
        h2.imp id fun h => ⟨h, hg0, hgp⟩
      rcases h with ⟨rfl, rfl⟩ | ⟨q, hq, h⟩
      · rw [List.nil_append, Nat.zero_add]
        exact .first hp1 (h2'.imp id fun h => ⟨.block h.1, h.2⟩)
      · rw [← List.append_assoc]
        exact .next h hp1 (by omega) (h2'.imp id fun h => ⟨h.1, h.2.1, Nat.le_of_lt h.2.2⟩)

theorem names_zero {i : Info} {N : NumberNames} : ∀ (ps : List Nat) (top : Nat), 0 < top → Names i N top ps →
    ∃ cs, Valued i (N.below 0) cs ∧ Block (limitOf i) cs 0 := by
  intro ps
  induction ps with
  | nil => intro top h hN; exact hN 0 h
  | cons p ps ih => intro top h hN; exact ih p (by have := hN.1; omega) hN.2.2.2.1

theorem names_numeral {i : Info} {N : NumberNames} {ps : List Nat} {top n : Nat} (hN : Names i N top ps) (hn : n < top) :
    ∃ cs, Valued i (N.name ps n) cs ∧ CardinalName (limitOf i) cs n := by
  unfold NumberNames.name
  by_cases h0 : n = 0
  · rw [if_pos h0, h0]
    obtain ⟨cs, h1, h2⟩ := names_zero ps top (by omega) hN
    exact ⟨cs, h1, .block (.block h2)⟩
  · rw [if_neg h0]
    obtain ⟨cs, h1, h2⟩ := names_parts ps top n 0 [] [] hN hn (by omega) .nil (Or.inl ⟨rfl, rfl⟩)
    rw [Nat.zero_add] at h2
    exact ⟨cs, h1, h2⟩

theorem written_only {i : Info} {ts ws : List PyStr} {cs : List (Class × Nat)} (h : Written i ts ws) (hv : Valued i ws cs) :
    OnlyWordsOf i ts cs := by
  induction h generalizing cs with
  | nil => cases hv; exact .nil
  | word he _ ih =>
    cases hv with
    | cons hw hv =>
      refine .word ?_ (ih hv)
      unfold WordOf at *
      rw [he]; exact hw
  | other ho _ ih => exact .other ho (ih hv)

/-! ### Texts -/

/-- Words and single spaces -/
def spacedTokens : List PyStr → List PyStr
  | [] => []
  | [w] => [w]
  | w :: w' :: ws => w :: u!" " :: spacedTokens (w' :: ws)

theorem between_flatten : ∀ ws : List PyStr, (spacedTokens ws).flatten = spaced ws
  | [] => rfl
  | [w] => by simp [spacedTokens, spaced]
  | w :: w' :: ws => by simp [spacedTokens, spaced, between_flatten (w' :: ws)]

theorem spaced_chars {P : Nat → Prop} (hs : P 32) : ∀ {ws : List PyStr}, (∀ w ∈ ws, ∀ c ∈ w, P c) → ∀ c ∈ spaced ws, P c
  | [], _, c, hc => by cases hc
  | [w], h, c, hc => h w (by simp) c hc
  | w :: w' :: ws, h, c, hc => by
    rw [spaced, List.append_assoc, List.mem_append, List.mem_append] at hc
    rcases hc with hc | hc | hc
    · exact h w (by simp) c hc
    · rw [show c = 32 by simpa using hc]; exact hs
    · exact spaced_chars hs (fun x hx => h x (by simp [List.mem_cons.mp hx])) c hc

theorem spaced_soft {l : PyStr} {ws : List PyStr} (h : ∀ w ∈ ws, OnePiece l w) : withoutSoftHyphens (spaced ws) = spaced ws := by
  apply List.filter_eq_self.mpr
  intro c hc
  have := spaced_chars (P := fun c => c ≠ 0xad) (by decide) (fun w hw c hc => ((h w hw).2 c hc).2.1) c hc
  exact bne_iff_ne.mpr this

theorem spaced_apos {l : PyStr} {ws : List PyStr} (h : ∀ w ∈ ws, OnePiece l w) : withoutApostrophes (spaced ws) = spaced ws := by
  apply List.filter_eq_self.mpr
  intro c hc
  have h1 := spaced_chars (P := fun c => c ≠ 0x27) (by decide) (fun w hw c hc => ((h w hw).2 c hc).2.2.1) c hc
  have h2 := spaced_chars (P := fun c => c ≠ 0x2019) (by decide) (fun w hw c hc => ((h w hw).2 c hc).2.2.2.1) c hc
  simp [h1, h2]

theorem between_words {l : PyStr} (hl : l ≠ u!"hi") : ∀ {ws : List PyStr}, ws ≠ [] → (∀ w ∈ ws, OnePiece l w) → WordTokens (spacedTokens ws)
  | [], h, _ => absurd rfl h
  | [w], _, h => .last fun c hc => ((h w (by simp)).2 c hc).2.2.2.2 hl
  | w :: w' :: ws, _, h => .cons (fun c hc => ((h w (by simp)).2 c hc).2.2.2.2 hl) (by decide +kernel)
      (between_words hl (by simp) fun x hx => h x (by simp [List.mem_cons.mp hx]))

theorem between_cons (w : PyStr) (ws : List PyStr) : ∃ r, spacedTokens (w :: ws) = w :: r := by
  cases ws with
  | nil => exact ⟨[], rfl⟩
  | cons w' ws => exact ⟨_, rfl⟩

theorem between_spaces {l : PyStr} : ∀ {ws : List PyStr}, ws ≠ [] → (∀ w ∈ ws, OnePiece l w) → SpaceTokens (spacedTokens ws)
  | [], h, _ => absurd rfl h
  | [w], _, h => .last fun c hc => ((h w (by simp)).2 c hc).1
  | w :: w' :: ws, _, h => by
    have ih := between_spaces (ws := w' :: ws) (by simp) fun x hx => h x (by simp [List.mem_cons.mp hx])
    obtain ⟨r, hr⟩ := between_cons w' ws
    rw [spacedTokens, hr]
    rw [hr] at ih
    exact .cons (fun c hc => ((h w (by simp)).2 c hc).1) (by decide) (by decide) (fun e => absurd e (h w' (by simp)).1) ih

theorem between_tokens {l : PyStr} {ws : List PyStr} (hne : ws ≠ []) (h : ∀ w ∈ ws, OnePiece l w) : Tokens l (spaced ws) (spacedTokens ws) := by
  refine ⟨by rw [between_flatten, spaced_soft h], ?_⟩
  by_cases hl : l = u!"hi"
  · rw [if_pos hl]; exact between_spaces hne h
  · rw [if_neg hl]; exact between_words hl hne h

theorem between_written {i : Info} : ∀ (ws : List PyStr), Written i (spacedTokens ws) ws
  | [] => .nil
  | [w] => .word rfl .nil
  | w :: w' :: ws => .word rfl (.other (Or.inl (by unfold BlankForm; decide +kernel)) (between_written (w' :: ws)))

/-! ### Names are not empty -/

theorem small_ne {cs : List (Class × Nat)} {v : Nat} (h : Small cs v) : cs ≠ [] := by cases h <;> simp

theorem group_ne {cs : List (Class × Nat)} {v : Nat} (h : Group cs v) : cs ≠ [] := by
  cases h with
  | simple h =>
    cases h with
    | small h => exact small_ne h
    | hundreds => simp
    | hundredsSmall => simp
  | hundred => simp

theorem block_ne {L : Nat} {cs : List (Class × Nat)} {v : Nat} (h : Block L cs v) : cs ≠ [] := by
  cases h with
  | group h => exact group_ne h
  | thousands => simp

theorem lead_ne {L : Nat} {cs : List (Class × Nat)} {v : Nat} (h : Lead L cs v) : cs ≠ [] := by
  cases h with
  | block h => exact block_ne h
  | thousands => simp

theorem scaled_ne {L : Nat} {cs : List (Class × Nat)} {v q : Nat} (h : Scaled L cs v q) : cs ≠ [] := by
  cases h <;> simp

theorem cardinalName_ne {L : Nat} {cs : List (Class × Nat)} {v : Nat} (h : CardinalName L cs v) : cs ≠ [] := by
  cases h with
  | block h => exact lead_ne h
  | scaled h => exact scaled_ne h
  | both h _ => intro e; exact scaled_ne h (List.append_eq_nil_iff.mp e).1

theorem valued_first {i : Info} {ws : List PyStr} {cs : List (Class × Nat)} (h : Valued i ws cs) (hne : cs ≠ []) :
    ∃ w ws', ws = w :: ws' ∧ CardinalOf i w := by
  cases h with
  | nil => exact absurd rfl hne
  | cons hw _ => exact ⟨_, _, rfl, _, last_lists hw⟩

theorem cardinal_noSkip {i : Info} (hi : Sensible i) {t : PyStr} (h : CardinalOf i t) : form t ∉ i.skipTokens := by
  obtain ⟨k, hk⟩ := h
  exact hi.noConjunction k _ hk

/-! ### Moderate values -/

theorem readAs_moderate {i : Info} (hi : Tidy i) (hm : Moderate i) {ts : List PyStr} {ws : List (Class × Nat)} {n : Nat}
    (h : OnlyWordsOf i ts ws) (hr : ReadAs i ws n) : n < 10 ^ 4300 := by
  have hD := sensible_disjoint hi.toSensible
  obtain ⟨h1, h2⟩ := onlyWordsOf_kinds hi.toSensible h
  obtain ⟨r, h3, h4⟩ := (readAs_run (onlyWordsOf_pos hi.toSensible h)).mp hr
  have hall : ∀ t ∈ formsOf ts, TokOK (mkLangData i) t := by
    intro t ht
    have := List.all_eq_true.mp h2 t ht
    simp only [numOrSkip, Bool.or_eq_true] at this
    rcases this with h | h
    · exact Or.inr (Or.inr h)
    · exact Or.inr (Or.inl h)
  have hb : numberOfItems (buildItems (mkLangData i) (formsOf ts)) = some n := by
    rw [buildItems_eq hD, numberOfItems_symItems]
    show Option.map _ (runR (mkLangData i).maximumGroupValue (kinds (mkLangData i) (formsOf ts)) RState.init) = _
    rw [h1, h3, ← h4]; rfl
  obtain ⟨is, m, hlast⟩ := buildItems_last (mkLangData i) (formsOf ts)
  rw [hlast] at hb
  obtain ⟨rfl, rfl⟩ := numberOfItems_last.mp hb
  exact moderate_bound hi hm (formsOf ts) hall m (by rw [hlast]; simp)

end NumberParser
