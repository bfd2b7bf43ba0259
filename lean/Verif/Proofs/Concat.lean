import Verif.Proofs.SentenceParse

/-! Independence of sentences (C17), agreement with `parse_number` (C18), adjacent units (C38). -/

set_option linter.unusedSimpArgs false

namespace NumberParser
open Spec

/-! ### The output does not start with white space if the text does not -/

theorem buildItems_head (ld : LangData) (ts : List PyStr) : ∃ n is, buildItems ld ts = .num n :: is := by
  have key : ∀ (ts : List PyStr) (s : BState), (s.out = [] ∨ ∃ n is, s.out = .num n :: is) →
      ((ts.foldl (buildStep ld) s).out = [] ∨ ∃ n is, (ts.foldl (buildStep ld) s).out = .num n :: is) := by
    intro ts
    induction ts with
    | nil => intro s h; exact h
    | cons t ts ih =>
      intro s h
      rw [List.foldl_cons]
      apply ih
      have hadd : ∀ (s : BState) (t : PyStr), (addToken ld s t).out = s.out := by
        intro s t
        unfold addToken
        simp only
        split
        · rfl
        · split
          · rfl
          · split
            · rfl
            · split
              · split <;> rfl
              · rfl
      unfold buildStep
      split
      · exact h
      · split
        · exact h
        · split
          · exact h
          · split
            · rw [hadd]; exact h
            · rw [hadd]
              right
              unfold flushInvalid
              rcases h with h | ⟨n, is, h⟩ <;> simp [h]
  unfold buildItems
  simp only
  rcases key ts BState.init (Or.inl rfl) with h | ⟨n, is, h⟩ <;> rw [h] <;> simp

theorem nums_head {ld : LangData} {ts : List PyStr} (h : ts ≠ []) : ∃ n ps, nums ld ts = decDigits n :: u!" " :: ps := by
  obtain ⟨n, is, hi⟩ := buildItems_head ld ts
  refine ⟨n, (is.map renderPure).flatMap (fun n => [n, u!" "]), ?_⟩
  unfold nums
  rw [if_neg (by cases ts <;> simp_all), hi]
  rfl

theorem flushed_head {ld : LangData} {ts : List PyStr} (h : ts ≠ []) (pop : Bool) : ∃ n ps, flushed ld ts pop = decDigits n :: ps := by
  obtain ⟨n, ps, hn⟩ := nums_head (ld := ld) h
  unfold flushed
  rw [hn]
  cases pop
  · exact ⟨n, _, rfl⟩
  · cases ps <;> exact ⟨n, _, rfl⟩

theorem flushedWord_head {ld : LangData} (hw : ld.WF) {ts : List PyStr} (hr : RunOK ld ts) (h : ts ≠ []) :
    ∃ n ps, flushedWord ld ts = decDigits n :: ps := by
  unfold flushedWord
  cases hl : ts.getLast? with
  | none => exact absurd (List.getLast?_eq_none_iff.mp hl) h
  | some last =>
    simp only
    by_cases hs : isSkipToken last ld = true
    · rw [if_pos hs]
      have : ts.dropLast ≠ [] := by
        intro he
        cases ts with
        | nil => exact h rfl
        | cons a as =>
          cases as with
          | nil =>
            simp at hl; subst hl
            have := hr.2 a (by simp)
            rw [skip_all hw hs] at this; cases this
          | cons b bs => simp at he
      obtain ⟨n, ps, hn⟩ := nums_head (ld := ld) this
      rw [hn]; exact ⟨n, _, rfl⟩
    · rw [if_neg hs]
      obtain ⟨n, ps, hn⟩ := nums_head (ld := ld) h
      exact ⟨n, _, hn⟩

def StartsNS (s : PyStr) : Prop := ∀ c cs, s = c :: cs → isSpace c = false

theorem StartsNS.append_left {a b : PyStr} (h : StartsNS a) (hne : a ≠ []) : StartsNS (a ++ b) := by
  cases a with
  | nil => exact absurd rfl hne
  | cons c cs => intro d ds he; simp at he; exact h d cs (by rw [he.1])

theorem StartsNS.digits (n : Nat) (b : PyStr) : StartsNS (decDigits n ++ b) := by
  obtain ⟨h1, h2⟩ := decDigits_solid n
  refine StartsNS.append_left ?_ h1
  intro c cs he; exact h2 c (by rw [he]; simp)

theorem StartsNS.append {a b : PyStr} (ha : StartsNS a) (hb : a = [] → StartsNS b) : StartsNS (a ++ b) := by
  by_cases h : a = []
  · subst h; exact hb rfl
  · exact ha.append_left h

theorem run_startsNS {ld : LangData} (hw : ld.WF) (ts : List PyStr) : ∀ q : QState, RunOK ld q.taken → StartsNS q.out.flatten →
    (q.out.flatten = [] → q.taken = [] → StartsNS ts.flatten) → StartsNS (finishQ ld (runQ ld ts q)).flatten := by
  induction ts with
  | nil =>
    intro q hr h1 h2
    show StartsNS (q.out ++ nums ld q.taken).flatten
    rw [List.flatten_append]
    refine h1.append (fun _ => ?_)
    by_cases ht : q.taken = []
    · rw [ht]; intro c cs he; simp [nums] at he
    · obtain ⟨n, ps, hn⟩ := nums_head (ld := ld) ht
      rw [hn, List.flatten_cons]; exact StartsNS.digits _ _
  | cons t ts ih =>
    intro q hr h1 h2
    rw [runQ_cons]
    have hrun := stepQ_run hw q hr t
    -- the first character of t, when it matters
    have ht : q.out.flatten = [] → q.taken = [] → StartsNS t := by
      intro e1 e2 c cs he
      exact h2 e1 e2 c (cs ++ ts.flatten) (by rw [List.flatten_cons, he]; rfl)
    have hts : q.out.flatten = [] → q.taken = [] → t = [] → StartsNS ts.flatten := by
      intro e1 e2 e3
      have := h2 e1 e2
      rw [e3] at this
      simpa using this
    have happ : ∀ ps : List PyStr, (q.taken ≠ [] → ∃ n qs, ps = decDigits n :: qs) → (q.taken = [] → ps.flatten = []) →
        StartsNS (q.out ++ ps ++ [t]).flatten ∧ ((q.out ++ ps ++ [t]).flatten = [] → StartsNS ts.flatten) := by
      intro ps hp1 hp2
      constructor
      · rw [List.append_assoc, List.flatten_append]
        refine h1.append (fun e => ?_)
        by_cases hq : q.taken = []
        · rw [List.flatten_append, hp2 hq]; simpa using ht e hq
        · obtain ⟨n, qs, rfl⟩ := hp1 hq
          rw [List.cons_append, List.flatten_cons]; exact StartsNS.digits _ _
      · intro e
        simp only [List.flatten_append, List.append_eq_nil_iff, List.flatten_cons, List.flatten_nil] at e
        by_cases hq : q.taken = []
        · exact hts e.1.1 hq e.2.1
        · obtain ⟨n, qs, rfl⟩ := hp1 hq
          have := e.1.2
          rw [List.flatten_cons, List.append_eq_nil_iff] at this
          exact absurd this.1 (decDigits_solid n).1
    have hkeep := happ [] 
    have hfnil : ∀ pop, (flushed ld [] pop).flatten = [] := by intro pop; unfold flushed nums; cases pop <;> rfl
    refine ih _ hrun ?_ ?_
    · unfold stepQ
      cases hc : classify ld t with
      | blank =>
        simp only
        split
        · rename_i he
          rw [List.isEmpty_iff] at he
          have := (happ [] (fun h => absurd he h) (fun _ => rfl)).1
          simpa using this
        · exact h1
      | sep => exact (happ _ (fun h => flushed_head h q.pop) (fun h => by rw [h]; exact hfnil _)).1
      | ord w =>
        simp only
        rw [List.flatten_append]
        refine h1.append (fun _ => ?_)
        obtain ⟨n, ps, hn⟩ := flushed_head (ld := ld) (ts := q.taken ++ [w]) (by simp) true
        rw [hn, List.flatten_cons]; exact StartsNS.digits _ _
      | card w => exact h1
      | skip w =>
        simp only
        split
        · rename_i he
          rw [List.isEmpty_iff] at he
          have := (happ [] (fun h => absurd he h) (fun _ => rfl)).1
          simpa using this
        · exact h1
      | word => exact (happ _ (fun h => flushedWord_head hw hr h) (fun h => by rw [h]; rfl)).1
    · unfold stepQ
      cases hc : classify ld t with
      | blank =>
        simp only
        split
        · rename_i he
          rw [List.isEmpty_iff] at he
          intro e _
          exact (happ [] (fun h => absurd he h) (fun _ => rfl)).2 (by simpa using e)
        · rename_i he
          intro _ e2
          exact absurd (List.isEmpty_iff.mpr e2) he
      | sep =>
        intro e _
        exact (happ _ (fun h => flushed_head h q.pop) (fun h => by rw [h]; exact hfnil _)).2 e
      | ord w =>
        simp only
        intro e
        obtain ⟨n, ps, hn⟩ := flushed_head (ld := ld) (ts := q.taken ++ [w]) (by simp) true
        rw [hn, List.flatten_append, List.append_eq_nil_iff, List.flatten_cons, List.append_eq_nil_iff] at e
        exact absurd e.2.1 (decDigits_solid n).1
      | card w => intro _ e; simp at e
      | skip w =>
        simp only
        split
        · rename_i he
          rw [List.isEmpty_iff] at he
          intro e _
          exact (happ [] (fun h => absurd he h) (fun _ => rfl)).2 (by simpa using e)
        · intro _ e; simp at e
      | word =>
        intro e _
        exact (happ _ (fun h => flushedWord_head hw hr h) (fun h => by rw [h]; rfl)).2 e

theorem pieces_startsNS {ld : LangData} (hw : ld.WF) {ts : List PyStr} (h : StartsNS ts.flatten) :
    StartsNS (pieces ld ts).flatten :=
  run_startsNS hw ts QState.init (RunOK.nil ld) (by intro c cs he; simp [QState.init] at he) (fun _ _ => h)

/-! ### C17 -/

theorem strip_append {a b : PyStr} (ha : ∀ c cs, a = cs ++ [c] → isSpace c = false) (hne : a ≠ []) (hb : StartsNS b) :
    strip (a ++ b) = strip a ++ strip b := by
  rcases List.eq_nil_or_concat a with rfl | ⟨a', x, rfl⟩
  · exact absurd rfl hne
  rw [List.concat_eq_append] at *
  have hx : isSpace x = false := ha x a' rfl
  have hdb : b.dropWhile isSpace = b := by
    cases b with
    | nil => rfl
    | cons c cs => rw [List.dropWhile_cons_of_neg]; rw [hb c cs rfl]; simp
  have hda : ∃ a2, (a' ++ [x]).dropWhile isSpace = a2 ++ [x] ∧ (a' ++ [x] ++ b).dropWhile isSpace = a2 ++ [x] ++ b := by
    clear ha hne
    induction a' with
    | nil => exact ⟨[], by simp [List.dropWhile, hx], by simp [List.dropWhile, hx]⟩
    | cons c cs ih =>
      by_cases hc : isSpace c = true
      · obtain ⟨a2, h1, h2⟩ := ih
        exact ⟨a2, by rw [List.cons_append, List.dropWhile_cons_of_pos hc, h1],
          by rw [List.cons_append, List.cons_append, List.dropWhile_cons_of_pos hc, h2]⟩
      · exact ⟨c :: cs, by rw [List.cons_append, List.dropWhile_cons_of_neg hc],
          by rw [List.cons_append, List.cons_append, List.dropWhile_cons_of_neg hc]⟩
  obtain ⟨a2, h1, h2⟩ := hda
  unfold strip
  rw [h1, h2, hdb]
  have hr : ∀ b : PyStr, rdropWhile isSpace (a2 ++ [x] ++ b) = a2 ++ [x] ++ rdropWhile isSpace b := by
    intro b
    rcases List.eq_nil_or_concat b with rfl | ⟨_, _, rfl⟩
    · unfold rdropWhile; simp [List.dropWhile, hx]
    · rename_i b' y
      clear hb hdb h2
      generalize b'.concat y = z
      unfold rdropWhile
      rw [List.reverse_append]
      generalize hz : z.reverse = zr
      induction zr generalizing z with
      | nil => simp [List.dropWhile, hx]
      | cons d ds ih =>
        by_cases hd : isSpace d = true
        · rw [List.cons_append, List.dropWhile_cons_of_pos hd, List.dropWhile_cons_of_pos hd]
          exact ih ds.reverse (by simp)
        · rw [List.cons_append, List.dropWhile_cons_of_neg hd, List.dropWhile_cons_of_neg hd]
          simp
  rw [hr b]
  have := hr []
  simp only [List.append_nil] at this
  rw [this]
  simp [rdropWhile]

theorem noShy_append (a b : PyStr) : noShy (a ++ b) = noShy a ++ noShy b := by unfold noShy; simp

theorem parse_concat {l : PyStr} {ld : LangData} (hl : languageData l = .ok ld) (hh : l ≠ u!"hi") (a b : PyStr) {c : Nat}
    (hc : c = 0x2e ∨ c = 0x2c) (hb : StartsNS (noShy b)) (x y : PyStr) (hx : parse (a ++ [c]) (some l) = .ok x)
    (hy : parse b (some l) = .ok y) : parse (a ++ [c] ++ b) (some l) = .ok (x ++ y) := by
  have hw := languageData_wf hl
  rw [parse_eq hl] at hx hy ⊢
  have hcs : noShy [c] = [c] := by rcases hc with rfl | rfl <;> decide
  have ht : tokenize (a ++ [c] ++ b) l = split l (noShy a) ++ [c] :: tokenize b l := by
    rw [tokenize_eq, noShy_append, noShy_append, hcs, List.append_assoc, tokenize_eq]
    exact split_append_sep hh _ _ (sep_mark hh hc)
  have hta : tokenize (a ++ [c]) l = split l (noShy a) ++ [c] :: [[]] := by
    rw [tokenize_eq, noShy_append, hcs]
    rw [split_append_sep hh _ [] (sep_mark hh hc), nonhi_split hh []]; rfl
  generalize hq : runQ ld (split l (noShy a)) QState.init = q
  have hs : stepQ ld q [c] = ⟨q.out ++ flushed ld q.taken q.pop ++ [[c]], [], q.pop⟩ := by
    unfold stepQ; rw [classify_mark hc]
  have e1 : pieces ld (tokenize (a ++ [c]) l) = q.out ++ flushed ld q.taken q.pop ++ [[c]] ++ [[]] := by
    unfold pieces
    rw [hta, runQ_append, hq, runQ_cons, hs, runQ_cons, step_blank_nil rfl rfl]
    simp [runQ, finishQ, nums]
  have e2 : pieces ld (tokenize (a ++ [c] ++ b) l) = q.out ++ flushed ld q.taken q.pop ++ [[c]] ++ pieces ld (tokenize b l) := by
    show finishQ ld (runQ ld _ _) = _
    rw [ht, runQ_append, hq, runQ_cons, hs, finish_shift ld _ _ rfl]
  rw [e1] at hx
  rw [e2]
  injection hx with hx
  injection hy with hy
  rw [← hx, ← hy]
  congr 1
  have : ((q.out ++ flushed ld q.taken q.pop ++ [[c]] ++ [[]]).flatten : PyStr) = (q.out ++ flushed ld q.taken q.pop ++ [[c]]).flatten := by simp
  rw [this, List.flatten_append]
  apply strip_append
  · intro d ds he
    rw [List.flatten_append] at he
    have := List.append_inj_right' he (by simp)
    simp at this
    subst this
    rcases hc with rfl | rfl <;> decide
  · simp
  · apply pieces_startsNS hw
    rw [tokenize_eq, split_flatten]
    exact hb

/-! ### C18 -/

theorem run_blank_lead {ld : LangData} (ts : List PyStr) (h : ∀ t ∈ ts, blank (norm t) = true) : ∀ q : QState, q.taken = [] →
    (runQ ld ts q).out = q.out ++ ts ∧ (runQ ld ts q).taken = [] := by
  induction ts with
  | nil => intro q hq; exact ⟨by simp [runQ], hq⟩
  | cons t ts ih =>
    intro q hq
    rw [runQ_cons, step_blank_nil (h t List.mem_cons_self) hq]
    obtain ⟨h1, h2⟩ := ih (fun t' ht' => h t' (List.mem_cons_of_mem _ ht')) ⟨q.out ++ [t], [], true⟩ rfl
    exact ⟨by rw [h1]; simp, h2⟩

/-- A text of number words and conjunctions starting with a number word, after white space. -/
theorem parse_run {l : PyStr} {ld : LangData} (hl : languageData l = .ok ld) (s : PyStr) (lead rest : List PyStr) (w : PyStr)
    (ht : tokenize s l = lead ++ w :: rest) (hlead : ∀ t ∈ lead, blank t = true)
    (hw : ld.allNumbers.mem (norm w) = true) (hok : ∀ t ∈ rest, tokOkB ld (norm t) = true) :
    parse s (some l) = .ok (strip (lead.flatten ++ (nums ld (nbs (tokenize s l))).flatten)) := by
  have hwf := languageData_wf hl
  rw [parse_eq hl]
  unfold pieces
  obtain ⟨h1, h2⟩ := run_blank_lead (ld := ld) lead (fun t ht => blank_norm (hlead t ht)) QState.init rfl
  obtain ⟨h3, h4, _⟩ := run_start hwf w rest (runQ ld lead QState.init) h2 hw hok
  have hnb : nbs (lead ++ w :: rest) = nbs (w :: rest) := by
    rw [nbs_append]
    have : nbs lead = [] := by
      unfold nbs
      rw [List.filter_eq_nil_iff]
      intro x hx
      obtain ⟨t, ht, rfl⟩ := List.mem_map.mp hx
      rw [blank_norm (hlead t ht)]; simp
    rw [this]; rfl
  rw [ht, runQ_append]
  unfold finishQ
  rw [h3, h4, h1, hnb]
  simp [QState.init]

theorem numberOfItems_some {is : List Item} {n : Nat} (h : numberOfItems is = some n) : is = [.num n] := by
  unfold numberOfItems at h
  split at h
  · simp at h; rw [h]
  · cases h

theorem strip_lead {a s : PyStr} (ha : ∀ c ∈ a, isSpace c = true) : strip (a ++ s) = strip s := by
  unfold strip; rw [List.dropWhile_append_of_pos ha]

theorem strip_number {a tail : PyStr} (ha : ∀ c ∈ a, isSpace c = true) (ht : ∀ c ∈ tail, isSpace c = true) (n : Nat) :
    strip (a ++ (decDigits n ++ tail)) = decDigits n := by
  rw [strip_lead ha]
  obtain ⟨h1, h2⟩ := decDigits_solid n
  exact strip_trail (fun c cs he => h2 c (by rw [he]; simp)) (fun c cs he => h2 c (by rw [he]; simp)) h1 ht

theorem flatten_blank {ts : List PyStr} (h : ∀ t ∈ ts, blank t = true) : ∀ c ∈ ts.flatten, isSpace c = true := by
  intro c hc
  obtain ⟨t, ht, hct⟩ := List.mem_flatten.mp hc
  have := h t ht
  rw [blank_iff, List.all_eq_true] at this
  exact this c hct

theorem token_sub {l s t : PyStr} (ht : t ∈ tokenize s l) : ∀ c ∈ t, c ∈ s := by
  intro c hc
  have := token_chars ht c hc
  unfold noShy at this
  exact (List.mem_filter.mp this).1

theorem token_alt {l : PyStr} {k : Bool} {ts : List PyStr} (h : Alt l k ts) {t : PyStr} (ht : t ∈ ts) : WordTok l t ∨ SepTok l t := by
  induction h with
  | nil k => cases ht
  | word hw _ ih =>
    rcases List.mem_cons.mp ht with rfl | ht
    · exact Or.inl hw
    · exact ih ht
  | sep hs _ ih =>
    rcases List.mem_cons.mp ht with rfl | ht
    · exact Or.inr hs
    · exact ih ht

/-- A number word as a token contains a character that is neither white space nor numeric. -/
theorem key_char {l : PyStr} {ld : LangData} (hl : languageData l = .ok ld) {s t : PyStr} (ht : t ∈ tokenize s l)
    (hw : ld.allNumbers.mem (norm t) = true) : ∃ c ∈ t, isSpace c = false ∧ isNumericChar c = false := by
  rcases token_alt (alt_tokenize l s) ht with h | h
  · exact word_char hl h (by unfold numOrSkip; rw [hw]; rfl)
  · have := (h.not_number (outOK_supported hl)).1
    rw [number_of_mem (languageData_wf hl) hw] at this; cases this

theorem parse_agrees {l : PyStr} {ld : LangData} (hl : languageData l = .ok ld) (s : PyStr) (lead rest : List PyStr) (w : PyStr)
    (ht : tokenize s l = lead ++ w :: rest) (hlead : ∀ t ∈ lead, blank t = true)
    (hw : ld.allNumbers.mem (norm w) = true) (ha : dropApos s = s) {n : Nat} (hn : parseNumber s (some l) = .ok (some n)) :
    parse s (some l) = .ok (decDigits n) := by
  have hwf := languageData_wf hl
  have hmem : w ∈ tokenize s l := by rw [ht]; simp
  obtain ⟨c, hc, hc1, hc2⟩ := key_char hl hmem hw
  have hcs := token_sub hmem c hc
  rw [parseNumber_words hl (not_blank_of_mem hcs hc1) (not_numeric_of_mem hcs hc1 hc2), ha] at hn
  injection hn with hn
  unfold wordsNumber at hn
  split at hn
  · rename_i htok
    have hitems := numberOfItems_some hn
    have hall := tokensOk_all hwf _ htok
    rw [parse_run hl s lead rest w ht hlead hw]
    · congr 1
      have hnb : buildItems ld (nbs (tokenize s l)) = [.num n] := by
        unfold nbs
        rw [← buildItems_filter hwf.toDisjoint]; exact hitems
      have hne : (nbs (tokenize s l)).isEmpty = false := by
        rw [ht, nbs_append, nbs_cons]
        have : nbs [w] = [norm w] := by unfold nbs; simp [key_blank hwf hw]
        rw [this]; simp
      have : (nums ld (nbs (tokenize s l))).flatten = decDigits n ++ u!" " := by
        unfold nums; rw [hnb, hne]; simp [renderPure]
      rw [this]
      exact strip_number (flatten_blank hlead) (by decide) n
    · intro t htr
      rw [tokOkB_iff]
      exact hall _ (List.mem_map.mpr ⟨t, by rw [ht]; simp [htr], rfl⟩)
  · cases hn

/-! ### C38 -/

/-- Unit and teen words. -/
def smallVal : Kind → Option Nat
  | .unit v => some v
  | .direct v => some v
  | _ => none

theorem small_items (mg : Nat) (ks : List Kind) (vs : List Nat) (h : ks.map smallVal = vs.map some) (hne : ks ≠ []) :
    symItems mg (ks.map .num) = vs.map .num := by
  have key : ∀ (ks : List Kind) (vs : List Nat) (s : KState), ks.map smallVal = vs.map some → s.total = 0 → s.used = [] →
      (∃ k v, s.prev = some k ∧ smallVal k = some v) →
      ((ks.map Sym.num).foldl (symStep mg) s).items = s.out ++ .num s.grp :: vs.map .num := by
    intro ks
    induction ks with
    | nil =>
      intro vs s h h1 h2 _
      have : vs = [] := by cases vs <;> simp_all
      subst this
      simp [KState.items, h1]
    | cons k ks ih =>
      intro vs s h h1 h2 h3
      cases vs with
      | nil => simp at h
      | cons v vs =>
        simp only [List.map_cons, List.cons.injEq] at h
        rw [List.map_cons, List.foldl_cons]
        obtain ⟨k', v', hp, hk'⟩ := h3
        have hstep : symStep mg s (.num k) = ⟨0, v, some k, none, s.out ++ [.num s.grp], []⟩ := by
          have hl : largeK k s.total s.grp = none := by cases k <;> simp_all [smallVal, largeK]
          have hv : validK k s.prev s.pow s.total s.grp = false := by
            rw [hp]
            cases k <;> cases k' <;> simp_all [smallVal, validK]
          show numStep mg s k = _
          unfold numStep
          rw [hl, hv]
          cases k <;> simp_all [smallVal, addK, flushK]
        rw [hstep, ih vs _ h.2 rfl rfl ⟨k, v, rfl, h.1⟩]
        simp
  cases ks with
  | nil => exact absurd rfl hne
  | cons k ks =>
    cases vs with
    | nil => simp at h
    | cons v vs =>
      simp only [List.map_cons, List.cons.injEq] at h
      have hstep : symStep mg KState.init (.num k) = ⟨0, v, some k, none, [], []⟩ := by
        cases k <;> simp_all [smallVal, symStep, numStep, KState.init, largeK, validK, addK]
      unfold symItems
      rw [List.map_cons, List.foldl_cons, hstep, key ks vs _ h.2 rfl rfl ⟨k, v, rfl, h.1⟩]
      rfl

end NumberParser
