import Verif.Spec.Interpreter
import Verif.Proofs.Auto
import Verif.Proofs.ParsePure

/-! The parser on other interpreters: the results depend on the tables at the characters of the text only, and on the limit of digits only
by raising. -/

namespace NumberParser
open Spec

/-! ### Agreeing tables -/

section Tables
variable {V W : Interpreter} {K : Nat → Prop}

theorem Spec.Within.cons {c : Nat} {s : PyStr} : Within K (c :: s) ↔ K c ∧ Within K s := by
  unfold Within; simp

theorem Spec.Within.append {s t : PyStr} : Within K (s ++ t) ↔ Within K s ∧ Within K t := by
  unfold Within; simp only [List.mem_append]
  exact ⟨fun h => ⟨fun c hc => h c (Or.inl hc), fun c hc => h c (Or.inr hc)⟩, fun h c hc => hc.elim (h.1 c) (h.2 c)⟩

theorem Spec.Within.filter {s : PyStr} (h : Within K s) (p : Nat → Bool) : Within K (s.filter p) :=
  fun c hc => h c (List.mem_filter.mp hc).1

theorem Spec.Within.sub {s t : PyStr} (h : Within K s) (hs : ∀ c ∈ t, c ∈ s) : Within K t := fun c hc => h c (hs c hc)

theorem dropWhile_same {p q : Nat → Bool} {s : PyStr} (h : ∀ c ∈ s, p c = q c) : s.dropWhile p = s.dropWhile q := by
  induction s with
  | nil => rfl
  | cons c s ih =>
    rw [List.dropWhile_cons, List.dropWhile_cons, h c List.mem_cons_self, ih (fun d hd => h d (List.mem_cons_of_mem _ hd))]

theorem casedNextOn_same (h : SameOn V W K) {s : PyStr} (hs : Within K s) : casedNextOn V s = casedNextOn W s := by
  unfold casedNextOn
  rw [dropWhile_same (q := W.caseIgnorable) (fun c hc => (h.agree c (hs c hc)).2.2.1)]
  split
  · rfl
  · rename_i c cs e
    have : c ∈ s := (List.dropWhile_sublist _).subset (e ▸ List.mem_cons_self)
    exact (h.agree c (hs c this)).2.2.2.1

theorem lowerGoOn_same (h : SameOn V W K) (s : PyStr) (hs : Within K s) (rev : PyStr) (hr : Within K rev) :
    lowerGoOn V rev s = lowerGoOn W rev s ∧ Within K (lowerGoOn V rev s) := by
  induction s generalizing rev with
  | nil => exact ⟨rfl, List.forall_mem_nil _⟩
  | cons c cs ih =>
    obtain ⟨hc, hcs⟩ := Within.cons.mp hs
    obtain ⟨e1, e2⟩ := ih hcs (c :: rev) (Within.cons.mpr ⟨hc, hr⟩)
    unfold lowerGoOn
    rw [e1, casedNextOn_same h hr, casedNextOn_same h hcs, (h.lower c hc).1]
    refine ⟨rfl, Within.append.mpr ⟨?_, e1 ▸ e2⟩⟩
    split
    · intro d hd
      rw [List.mem_singleton] at hd
      subst hd
      split
      · exact h.sigma.1
      · exact h.sigma.2
    · rw [← (h.lower c hc).1]; exact (h.lower c hc).2

theorem lowerOn_same (h : SameOn V W K) {s : PyStr} (hs : Within K s) : lowerOn V s = lowerOn W s ∧ Within K (lowerOn V s) :=
  lowerGoOn_same h s hs [] (List.forall_mem_nil _)

theorem insertCccOn_same (h : SameOn V W K) (c : Nat) (hc : K c) (s : PyStr) (hs : Within K s) :
    insertCccOn V c s = insertCccOn W c s ∧ Within K (insertCccOn V c s) := by
  induction s with
  | nil => exact ⟨rfl, Within.cons.mpr ⟨hc, List.forall_mem_nil _⟩⟩
  | cons d ds ih =>
    obtain ⟨hd, hds⟩ := Within.cons.mp hs
    obtain ⟨e1, e2⟩ := ih hds
    have a := (h.agree c hc).2.2.2.2.1
    have b := (h.agree d hd).2.2.2.2.1
    constructor
    · unfold insertCccOn; rw [e1, a, b]
    · unfold insertCccOn
      split
      · exact Within.cons.mpr ⟨hd, e2⟩
      · exact Within.cons.mpr ⟨hc, hs⟩

theorem canonicalOrderOn_same (h : SameOn V W K) (s : PyStr) (hs : Within K s) :
    canonicalOrderOn V s = canonicalOrderOn W s ∧ Within K (canonicalOrderOn V s) := by
  induction s with
  | nil => exact ⟨rfl, List.forall_mem_nil _⟩
  | cons c cs ih =>
    obtain ⟨hc, hcs⟩ := Within.cons.mp hs
    obtain ⟨e1, e2⟩ := ih hcs
    obtain ⟨f1, f2⟩ := insertCccOn_same h c hc _ e2
    exact ⟨by unfold canonicalOrderOn; rw [f1, e1], f2⟩

theorem flatMap_decomp_same (h : SameOn V W K) (s : PyStr) (hs : Within K s) :
    s.flatMap V.decomp = s.flatMap W.decomp ∧ Within K (s.flatMap V.decomp) := by
  induction s with
  | nil => exact ⟨rfl, List.forall_mem_nil _⟩
  | cons c cs ih =>
    obtain ⟨hc, hcs⟩ := Within.cons.mp hs
    obtain ⟨e1, e2⟩ := ih hcs
    rw [List.flatMap_cons, List.flatMap_cons, e1, (h.decomp c hc).1]
    exact ⟨rfl, Within.append.mpr ⟨(h.decomp c hc).1 ▸ (h.decomp c hc).2, e1 ▸ e2⟩⟩

theorem stripAccentsOn_same (h : SameOn V W K) {s : PyStr} (hs : Within K s) :
    stripAccentsOn V s = stripAccentsOn W s ∧ Within K (stripAccentsOn V s) := by
  obtain ⟨e1, e2⟩ := flatMap_decomp_same h s hs
  obtain ⟨f1, f2⟩ := canonicalOrderOn_same h _ e2
  have hn : nfdOn V s = nfdOn W s := by unfold nfdOn; rw [f1, e1]
  constructor
  · unfold stripAccentsOn
    rw [← hn]
    apply List.filter_congr
    intro c hc
    rw [(h.agree c (f2 c hc)).2.1]
  · exact Within.filter f2 _

theorem normOn_same (h : SameOn V W K) {s : PyStr} (hs : Within K s) :
    stripAccentsOn V (lowerOn V s) = stripAccentsOn W (lowerOn W s) ∧ Within K (stripAccentsOn V (lowerOn V s)) := by
  obtain ⟨e1, e2⟩ := lowerOn_same h hs
  obtain ⟨f1, f2⟩ := stripAccentsOn_same h e2
  exact ⟨by rw [f1, e1], f2⟩

theorem splitNonWordOn_same (h : SameOn V W K) (s : PyStr) (hs : Within K s) :
    splitNonWordOn V s = splitNonWordOn W s ∧ ∀ t ∈ splitNonWordOn V s, Within K t := by
  induction s with
  | nil => exact ⟨rfl, fun t ht => by simp [splitNonWordOn] at ht; subst ht; exact List.forall_mem_nil _⟩
  | cons c cs ih =>
    obtain ⟨hc, hcs⟩ := Within.cons.mp hs
    obtain ⟨e1, e2⟩ := ih hcs
    have hw := (h.agree c hc).1
    constructor
    · unfold splitNonWordOn; rw [e1, hw]
    · intro t ht
      unfold splitNonWordOn at ht
      split at ht
      · split at ht
        · rw [List.mem_singleton] at ht; subst ht
          exact Within.cons.mpr ⟨hc, List.forall_mem_nil _⟩
        · rename_i u us e
          rcases List.mem_cons.mp ht with rfl | ht
          · exact Within.cons.mpr ⟨hc, e2 u (e ▸ List.mem_cons_self)⟩
          · exact e2 t (e ▸ List.mem_cons_of_mem _ ht)
      · rcases List.mem_cons.mp ht with rfl | ht
        · exact List.forall_mem_nil _
        · rcases List.mem_cons.mp ht with rfl | ht
          · exact Within.cons.mpr ⟨hc, List.forall_mem_nil _⟩
          · exact e2 t ht

theorem splitSpaces_within (s : PyStr) (hs : Within K s) : ∀ t ∈ splitSpaces s, Within K t := by
  intro t ht c hc
  have hf := (tokens_tokenize u!"hi" s)
  have : ∀ s : PyStr, ∀ t ∈ splitSpaces s, ∀ c ∈ t, c ∈ s := by
    intro s
    induction s with
    | nil => intro t ht c hc; simp [splitSpaces] at ht; subst ht; cases hc
    | cons d ds ih =>
      intro t ht c hc
      unfold splitSpaces at ht
      split at ht
      · split at ht
        · rename_i run ts e
          split at ht
          · rcases List.mem_cons.mp ht with rfl | ht
            · cases hc
            · rcases List.mem_cons.mp ht with rfl | ht
              · rcases List.mem_cons.mp hc with rfl | hc
                · exact List.mem_cons_self
                · exact List.mem_cons_of_mem _ (ih run (e ▸ by simp) c hc)
              · exact List.mem_cons_of_mem _ (ih t (e ▸ by simp [ht]) c hc)
          · rcases List.mem_cons.mp ht with rfl | ht
            · cases hc
            · rcases List.mem_cons.mp ht with rfl | ht
              · rw [List.mem_singleton] at hc; subst hc; exact List.mem_cons_self
              · exact List.mem_cons_of_mem _ (ih t (e ▸ ht) c hc)
        · rcases List.mem_cons.mp ht with rfl | ht
          · cases hc
          · rcases List.mem_cons.mp ht with rfl | ht
            · rw [List.mem_singleton] at hc; subst hc; exact List.mem_cons_self
            · exact List.mem_cons_of_mem _ (ih t ht c hc)
      · split at ht
        · rw [List.mem_singleton] at ht; subst ht
          rw [List.mem_singleton] at hc; subst hc; exact List.mem_cons_self
        · rename_i u us e
          rcases List.mem_cons.mp ht with rfl | ht
          · rcases List.mem_cons.mp hc with rfl | hc
            · exact List.mem_cons_self
            · exact List.mem_cons_of_mem _ (ih u (e ▸ by simp) c hc)
          · exact List.mem_cons_of_mem _ (ih t (e ▸ by simp [ht]) c hc)
  exact hs c (this s t ht c hc)

theorem Spec.Within.replace {s : PyStr} (h : Within K s) (old new : PyStr) (hn : Within K new) : Within K (replace s old new) := by
  intro c hc
  rcases mem_replaceGo hc with hc | hc
  · exact h c hc
  · exact hn c hc

theorem tokenizeOn_same (h : SameOn V W K) {s : PyStr} (hs : Within K s) (l : PyStr) :
    tokenizeOn V s l = tokenizeOn W s l ∧ ∀ t ∈ tokenizeOn V s l, Within K t := by
  have hr : Within K (NumberParser.replace s u!"\u00ad" []) := hs.replace _ _ (List.forall_mem_nil _)
  unfold tokenizeOn
  cases RE_BUG_LANGUAGES.elem l with
  | true => exact ⟨rfl, splitSpaces_within _ hr⟩
  | false => exact splitNonWordOn_same h _ hr

theorem normalizeTokensOn_same (h : SameOn V W K) (ts : List PyStr) (hs : ∀ t ∈ ts, Within K t) :
    normalizeTokensOn V ts = normalizeTokensOn W ts ∧ ∀ t ∈ normalizeTokensOn V ts, Within K t := by
  constructor
  · unfold normalizeTokensOn
    exact List.map_congr_left (fun t ht => (normOn_same h (hs t ht)).1)
  · intro t ht
    unfold normalizeTokensOn at ht
    obtain ⟨u, hu, rfl⟩ := List.mem_map.mp ht
    exact (normOn_same h (hs u hu)).2

theorem tokens_same (h : SameOn V W K) {s : PyStr} (hs : Within K s) (l : PyStr) :
    normalizeTokensOn V (tokenizeOn V s l) = normalizeTokensOn W (tokenizeOn W s l) ∧
    ∀ t ∈ normalizeTokensOn V (tokenizeOn V s l), Within K t := by
  obtain ⟨e1, e2⟩ := tokenizeOn_same h hs l
  obtain ⟨f1, f2⟩ := normalizeTokensOn_same h _ e2
  exact ⟨by rw [f1, e1], f2⟩

theorem normalizeDictOn_same (h : SameOn V W K) (d : Dict) (hd : ∀ e ∈ d, Within K e.1) : normalizeDictOn V d = normalizeDictOn W d := by
  unfold normalizeDictOn
  generalize ([] : Dict) = acc
  induction d generalizing acc with
  | nil => rfl
  | cons e d ih =>
    rw [List.foldl_cons, List.foldl_cons, (stripAccentsOn_same h (hd e List.mem_cons_self)).1]
    exact ih (fun e he => hd e (List.mem_cons_of_mem _ he)) _

theorem mkLangDataOn_same (h : SameOn V W K) {l : PyStr} (hl : l ∈ supported) : mkLangDataOn V (file l) = mkLangDataOn W (file l) := by
  have w := h.words l hl
  have e1 := normalizeDictOn_same h (file l).unitNumbers (fun e he => w .unit e.1 e.2 he)
  have e2 := normalizeDictOn_same h (file l).directNumbers (fun e he => w .direct e.1 e.2 he)
  have e3 := normalizeDictOn_same h (file l).tens (fun e he => w .tens e.1 e.2 he)
  have e4 := normalizeDictOn_same h (file l).hundreds (fun e he => w .hundreds e.1 e.2 he)
  have e5 := normalizeDictOn_same h (file l).bigPowersOfTen (fun e he => w .scale e.1 e.2 he)
  unfold mkLangDataOn
  rw [e1, e2, e3, e4, e5]

theorem languageDataOn_eq (V : Interpreter) (l : PyStr) :
    languageDataOn V l = if l ∈ supported then .ok (mkLangDataOn V (file l)) else .error .unsupportedLanguage := by
  unfold languageDataOn
  by_cases hl : l ∈ supported
  · rw [if_pos hl]
    simp only [supported, List.mem_cons, List.not_mem_nil, or_false] at hl
    rcases hl with rfl | rfl | rfl | rfl | rfl <;> rfl
  · rw [if_neg hl]
    have : SUPPORTED_LANGUAGES.elem l = false := by
      rw [Bool.eq_false_iff]; intro h'; exact hl (List.elem_iff.mp h')
    rw [this]; rfl

theorem languageDataOn_same (h : SameOn V W K) (l : PyStr) : languageDataOn V l = languageDataOn W l := by
  rw [languageDataOn_eq, languageDataOn_eq]
  by_cases hl : l ∈ supported
  · rw [if_pos hl, if_pos hl, mkLangDataOn_same h hl]
  · rw [if_neg hl, if_neg hl]

theorem resolveLanguageOn_same (h : SameOn V W K) {s : PyStr} (hs : Within K s) (lang : Option PyStr) :
    resolveLanguageOn V s lang = resolveLanguageOn W s lang := by
  cases lang with
  | some l => rfl
  | none =>
    unfold resolveLanguageOn validTokensByLanguageOn
    have : (fun l => do return (l, ← countValidOn V s l) : PyStr → Res (PyStr × Nat)) = fun l => do return (l, ← countValidOn W s l) := by
      funext l
      unfold countValidOn
      rw [languageDataOn_same h, (tokens_same h hs l).1]
    rw [this]

theorem isNumericOn_same (h : SameOn V W K) {s : PyStr} (hs : Within K s) : isNumericOn V s = isNumericOn W s := by
  unfold isNumericOn
  congr 1
  induction s with
  | nil => rfl
  | cons c cs ih =>
    obtain ⟨hc, hcs⟩ := Within.cons.mp hs
    rw [List.all_cons, List.all_cons, ih hcs, (h.agree c hc).2.2.2.2.2.1]

end Tables

/-! ### The limit of digits -/

/-- The first result is the second, or the conversion of a number was refused. -/
def Alike {α : Type} (a b : Res α) : Prop := a = .error .badInt ∨ a = b

theorem Alike.rfl' {α : Type} {a : Res α} : Alike a a := Or.inr rfl

theorem Alike.bind {α β : Type} {a b : Res α} {f g : α → Res β} (h : Alike a b) (hf : ∀ x, a = .ok x → Alike (f x) (g x)) :
    Alike (a >>= f) (b >>= g) := by
  rcases h with rfl | rfl
  · exact Or.inl rfl
  · cases a with
    | error e => exact Or.inr rfl
    | ok x => exact hf x rfl

theorem Alike.eq {α : Type} {a b : Res α} (h : Alike a b) (h' : Alike b a) : a = b := by
  rcases h with rfl | rfl
  · rcases h' with rfl | rfl <;> rfl
  · rfl

theorem fits_le {V W : Interpreter} (h : LimitLE V.limit W.limit) {n : Nat} (hn : V.fits n = true) : W.fits n = true := by
  unfold Interpreter.fits at *
  cases hw : W.limit with
  | none => rfl
  | some b =>
    cases hv : V.limit with
    | none => rw [hv, hw] at h; exact h.elim
    | some a =>
      rw [hv] at hn
      rw [hv, hw] at h
      simp only [LimitLE, decide_eq_true_eq] at *
      omega

section Limits
variable {V W : Interpreter} {K : Nat → Prop}

theorem strIntOn_alike (hl : LimitLE V.limit W.limit) (n : Nat) : Alike (strIntOn V n) (strIntOn W n) := by
  unfold strIntOn
  cases hv : V.fits (decDigits n).length with
  | false => exact Or.inl rfl
  | true => rw [fits_le hl hv]; exact Or.inr rfl

theorem mapM_decimal_same (h : SameOn V W K) (s : PyStr) (hs : Within K s) : s.mapM V.decimal = s.mapM W.decimal := by
  induction s with
  | nil => rfl
  | cons c cs ih =>
    obtain ⟨hc, hcs⟩ := Within.cons.mp hs
    rw [List.mapM_cons, List.mapM_cons, ih hcs, (h.agree c hc).2.2.2.2.2.2]

theorem rdropWhile_sub {p : Nat → Bool} {s : PyStr} : ∀ c ∈ rdropWhile p s, c ∈ s := by
  intro c hc
  unfold rdropWhile at hc
  exact List.mem_reverse.mp ((List.dropWhile_sublist _).subset (List.mem_reverse.mp hc))

theorem pyIntOn_alike (h : SameOn V W K) (hl : LimitLE V.limit W.limit) {s : PyStr} (hs : Within K s) : Alike (pyIntOn V s) (pyIntOn W s) := by
  have hw : Within K (rdropWhile isIntSpace (s.dropWhile isIntSpace)) :=
    (hs.sub (fun c hc => (List.dropWhile_sublist _).subset hc)).sub rdropWhile_sub
  unfold pyIntOn
  simp only [mapM_decimal_same h _ hw]
  split
  · exact Or.inr rfl
  · split
    · exact Or.inr rfl
    · rename_i ds _
      cases hv : V.fits ds.length with
      | false => exact Or.inl rfl
      | true => rw [fits_le hl hv]; exact Or.inr rfl

theorem mapM_alike {α β : Type} {f g : α → Res β} (xs : List α) (h : ∀ x ∈ xs, Alike (f x) (g x)) : Alike (xs.mapM f) (xs.mapM g) := by
  induction xs with
  | nil => exact Or.inr rfl
  | cons x xs ih =>
    rw [List.mapM_cons, List.mapM_cons]
    apply Alike.bind (h x List.mem_cons_self)
    intro y _
    apply Alike.bind (ih (fun x hx => h x (List.mem_cons_of_mem _ hx)))
    intro ys _
    exact Or.inr rfl

theorem buildNumberOn_alike (hl : LimitLE V.limit W.limit) (ld : LangData) (ts : List PyStr) :
    Alike (buildNumberOn V ld ts) (buildNumberOn W ld ts) := by
  apply mapM_alike
  intro i _
  cases i with
  | num n => exact strIntOn_alike hl n
  | skip t => exact Or.inr rfl

/-- The strings built are digits or conjunctions of the data. -/
theorem buildNumberOn_single {ld : LangData} {ts : List PyStr} {s : PyStr} (h : buildNumberOn V ld ts = .ok [s]) : ∃ n, s = decDigits n := by
  unfold buildNumberOn at h
  obtain ⟨is, n, e⟩ := buildItems_last ld ts
  rw [e] at h
  have hlen : ∀ (xs : List Item) (ys : List PyStr), xs.mapM (renderItemOn V) = .ok ys → xs.length = ys.length := by
    intro xs
    induction xs with
    | nil => intro ys h; cases h; rfl
    | cons x xs ih =>
      intro ys h
      rw [List.mapM_cons] at h
      cases h1 : renderItemOn V x with
      | error e => rw [h1] at h; cases h
      | ok y =>
        rw [h1] at h
        cases h2 : xs.mapM (renderItemOn V) with
        | error e => rw [h2] at h; cases h
        | ok zs => rw [h2] at h; cases h; simp [ih zs h2]
  have := hlen _ _ h
  have hi : is = [] := by
    cases is with
    | nil => rfl
    | cons a b => simp at this
  subst hi
  rw [List.nil_append, List.mapM_cons] at h
  simp only [renderItemOn, strIntOn] at h
  split at h
  · cases h; exact ⟨n, rfl⟩
  · cases h

theorem digits_within (h : SameOn V W K) (n : Nat) : Within K (decDigits n) := by
  intro c hc
  have := (decDigits_isDigit n).2 c hc
  exact h.ascii c (by omega)

theorem strip_within {s : PyStr} (hs : Within K s) : Within K (strip s) :=
  (hs.sub (fun c hc => (List.dropWhile_sublist _).subset hc)).sub rdropWhile_sub

theorem parseNumberOn_alike (h : SameOn V W K) (hl : LimitLE V.limit W.limit) {s : PyStr} (hs : Within K s) (lang : Option PyStr) :
    Alike (parseNumberOn V s lang) (parseNumberOn W s lang) := by
  unfold parseNumberOn
  rw [isNumericOn_same h (strip_within hs), resolveLanguageOn_same h hs]
  split
  · exact Or.inr rfl
  · split
    · exact Alike.bind (pyIntOn_alike h hl hs) (fun n _ => Or.inr rfl)
    · apply Alike.bind Alike.rfl'
      intro l _
      rw [languageDataOn_same h]
      apply Alike.bind Alike.rfl'
      intro ld _
      have hr : Within K (replace (replace s u!"'" []) u!"’" []) :=
        (hs.replace _ _ (List.forall_mem_nil _)).replace _ _ (List.forall_mem_nil _)
      simp only [(tokens_same h hr l).1]
      split
      · apply Alike.bind (buildNumberOn_alike hl ld _)
        intro built hb
        split
        · rename_i x
          obtain ⟨n, rfl⟩ := buildNumberOn_single hb
          exact Alike.bind (pyIntOn_alike h hl (digits_within h n)) (fun n _ => Or.inr rfl)
        · exact Or.inr rfl
      · exact Or.inr rfl

theorem join_within {ts : List PyStr} {sep : PyStr} (hsep : Within K sep) (h : ∀ t ∈ ts, Within K t) : Within K (join sep ts) := by
  induction ts with
  | nil => exact List.forall_mem_nil _
  | cons a ts ih =>
    cases ts with
    | nil => exact h a List.mem_cons_self
    | cons b rest =>
      unfold join
      exact Within.append.mpr ⟨Within.append.mpr ⟨h a List.mem_cons_self, hsep⟩, ih (fun t ht => h t (List.mem_cons_of_mem _ ht))⟩

theorem parseOrdinalOn_alike (h : SameOn V W K) (hl : LimitLE V.limit W.limit) {s : PyStr} (hs : Within K s) (lang : Option PyStr) :
    Alike (parseOrdinalOn V s lang) (parseOrdinalOn W s lang) := by
  unfold parseOrdinalOn
  rw [resolveLanguageOn_same h hs]
  apply Alike.bind Alike.rfl'
  intro l _
  rw [languageDataOn_same h]
  apply Alike.bind Alike.rfl'
  intro ld _
  obtain ⟨e1, e2⟩ := tokens_same h hs l
  simp only [← e1]
  apply parseNumberOn_alike h hl
  have hsp : Within K u!" " := fun c hc => by rw [List.mem_singleton] at hc; subst hc; exact h.ascii _ (by decide)
  apply join_within hsp
  intro t ht
  obtain ⟨u, hu, rfl⟩ := List.mem_map.mp ht
  intro c hc
  rcases mem_conv hc with hc | hc | rfl
  · exact e2 u hu c hc
  · apply h.ascii
    unfold isAz at hc
    simp only [Bool.and_eq_true, decide_eq_true_eq] at hc
    omega
  · exact h.ascii _ (by decide)

theorem fractionLoopOn_alike (h : SameOn V W K) (hl : LimitLE V.limit W.limit) {s : PyStr} (hs : Within K s) (l : PyStr) (seps : List PyStr) :
    Alike (fractionLoopOn V s l seps) (fractionLoopOn W s l seps) := by
  induction seps with
  | nil => exact Or.inr rfl
  | cons sep seps ih =>
    unfold fractionLoopOn
    split
    · exact ih
    · apply Alike.bind (parseNumberOn_alike h hl (hs.sub (fun c hc => List.mem_of_mem_take hc)) _)
      intro m _
      apply Alike.bind (parseNumberOn_alike h hl (hs.sub (fun c hc => List.mem_of_mem_drop hc)) _)
      intro n _
      split
      · apply Alike.bind (strIntOn_alike hl _)
        intro ms _
        apply Alike.bind (strIntOn_alike hl _)
        intro ns _
        exact Or.inr rfl
      · exact Or.inr rfl

theorem parseFractionOn_alike (h : SameOn V W K) (hl : LimitLE V.limit W.limit) {s : PyStr} (hs : Within K s) (lang : Option PyStr) :
    Alike (parseFractionOn V s lang) (parseFractionOn W s lang) := by
  unfold parseFractionOn
  rw [resolveLanguageOn_same h hs]
  split
  · exact Or.inr rfl
  · exact Alike.bind Alike.rfl' (fun l _ => fractionLoopOn_alike h hl hs l _)

theorem buildAndAddOn_alike (hl : LimitLE V.limit W.limit) (ld : LangData) (s : PState) (pop : Bool) :
    Alike (buildAndAddOn V ld s pop) (buildAndAddOn W ld s pop) := by
  unfold buildAndAddOn
  split
  · exact Or.inr rfl
  · exact Alike.bind (buildNumberOn_alike hl ld _) (fun _ _ => Or.inr rfl)

theorem parseStepOn_alike (h : SameOn V W K) (hl : LimitLE V.limit W.limit) (ld : LangData) (s : PState) {t : PyStr} (ht : Within K t) :
    Alike (parseStepOn V ld s t) (parseStepOn W ld s t) := by
  unfold parseStepOn
  simp only [(normOn_same h ht).1]
  split
  · exact Or.inr rfl
  · split
    · exact Alike.bind (buildAndAddOn_alike hl ld _ _) (fun _ _ => Or.inr rfl)
    · split
      · exact Alike.bind (buildAndAddOn_alike hl ld _ _) (fun _ _ => Or.inr rfl)
      · split
        · exact Or.inr rfl
        · have last : ∀ s : PState, Alike (do let s ← buildAndAddOn V ld s false
                                              return { s with current := s.current ++ [t], pop := true } : Res PState)
              (do let s ← buildAndAddOn W ld s false
                  return { s with current := s.current ++ [t], pop := true }) :=
            fun s => Alike.bind (buildAndAddOn_alike hl ld _ _) (fun _ _ => Or.inr rfl)
          split
          · split
            · exact Alike.bind (buildAndAddOn_alike hl ld _ _) (fun s' _ => last _)
            · exact last _
          · exact last _

theorem parseFoldOn_alike (h : SameOn V W K) (hl : LimitLE V.limit W.limit) (ld : LangData) (ts : List PyStr) (ht : ∀ t ∈ ts, Within K t)
    (s : PState) : Alike (ts.foldlM (parseStepOn V ld) s) (ts.foldlM (parseStepOn W ld) s) := by
  induction ts generalizing s with
  | nil => exact Or.inr rfl
  | cons t ts ih =>
    rw [List.foldlM_cons, List.foldlM_cons]
    exact Alike.bind (parseStepOn_alike h hl ld s (ht t List.mem_cons_self)) (fun s' _ => ih (fun t h => ht t (List.mem_cons_of_mem _ h)) s')

theorem parseOn_alike (h : SameOn V W K) (hl : LimitLE V.limit W.limit) {s : PyStr} (hs : Within K s) (lang : Option PyStr) :
    Alike (parseOn V s lang) (parseOn W s lang) := by
  unfold parseOn
  rw [resolveLanguageOn_same h hs]
  apply Alike.bind Alike.rfl'
  intro l _
  rw [languageDataOn_same h]
  apply Alike.bind Alike.rfl'
  intro ld _
  obtain ⟨e1, e2⟩ := tokenizeOn_same h hs l
  rw [← e1]
  apply Alike.bind
  · unfold parseRawOn
    apply Alike.bind (parseFoldOn_alike h hl ld _ e2 _)
    intro s' _
    exact Alike.bind (buildAndAddOn_alike hl ld _ _) (fun _ _ => Or.inr rfl)
  · intro raw _
    exact Or.inr rfl

end Limits

end NumberParser
