import Verif.Spec.Locale
import Verif.Proofs.FileRuns

namespace NumberParser
open Gen Spec

theorem readJsonOn_posix (b : Bytes) : readJsonOn .posix b = readJson b := rfl

theorem lineEnds_lf (s : PyStr) : lineEnds [10] s = s := by
  unfold lineEnds
  induction s with
  | nil => rfl
  | cons c s ih =>
    rw [List.flatMap_cons, ih]
    split
    · rename_i h; rw [h]; rfl
    · rfl

theorem writeOneOn_posix (f : LangBytes) (T : Table Bytes) : writeOneOn .posix f T = writeOneBytes f T := by
  unfold writeOneOn writeOneBytes
  have h : newTextOn .posix f = newTextBytes f := rfl
  rw [h]
  cases newTextBytes f with
  | error e => rfl
  | ok o =>
    cases o with
    | none => rfl
    | some text => simp only [Platform.posix, lineEnds_lf]; rfl

theorem readJsonOn_of_decode {p : Platform} {b b' : Bytes} {s : PyStr} (h : p.decode b = some s) (h' : utf8Decode b' = some s) :
    readJsonOn p b = readJson b' := by
  unfold readJsonOn readJson; rw [h, h']; rfl

theorem newTextOn_eq {p : Platform} {f g : LangBytes} (hn : g.name = f.name) (hs : readJsonOn p f.source = readJson g.source)
    (hx : (f.supplementary = none ∧ g.supplementary = none) ∨
      ∃ b b', f.supplementary = some b ∧ g.supplementary = some b' ∧ readJsonOn p b = readJson b') : newTextOn p f = newTextBytes g := by
  unfold newTextOn newTextBytes
  rw [hn, hs]
  rcases hx with ⟨h1, h2⟩ | ⟨b, b', h1, h2, h3⟩
  · rw [h1, h2]; rfl
  · rw [h1, h2]; simp only [h3]; rfl

theorem Spec.ConvertedFiles.newText {p : Platform} {f g : LangBytes} (h : ConvertedFiles p f g) : newTextOn p f = newTextBytes g := by
  obtain ⟨hn, ⟨s, h1, h2⟩, hx⟩ := h
  refine newTextOn_eq hn (readJsonOn_of_decode h1 ((utf8Decode_iff _ _).mpr h2)) ?_
  rcases hx with hx | ⟨b, b', s, h3, h4, h5, h6⟩
  · exact .inl hx
  · exact .inr ⟨b, b', h3, h4, readJsonOn_of_decode h5 ((utf8Decode_iff _ _).mpr h6)⟩

theorem utf8_ascii {s : PyStr} (h : Ascii s) : Utf8 s s := by
  induction s with
  | nil => exact .nil
  | cons c s ih => exact .cons (b := [c]) (.one (h c List.mem_cons_self)) (ih (fun d hd => h d (List.mem_cons_of_mem _ hd)))

theorem asciiFiles_converted {p : Platform} (hp : AsciiCompatible p) {f : LangBytes} (h : AsciiFiles f) : ConvertedFiles p f f := by
  refine ⟨rfl, ⟨f.source, hp.decode _ h.1, utf8_ascii h.1⟩, ?_⟩
  cases hs : f.supplementary with
  | none => exact .inl ⟨rfl, rfl⟩
  | some b => exact .inr ⟨b, b, b, rfl, rfl, hp.decode _ (h.2 b hs), utf8_ascii (h.2 b hs)⟩

/-! ### One byte per character -/

theorem mapM_some {α β : Type} {g : α → Option β} {l : List α} {r : List β} (h : l.mapM g = some r) : l.map g = r.map some := by
  induction l generalizing r with
  | nil => simp at h; subst h; rfl
  | cons a l ih =>
    rw [List.mapM_cons] at h
    cases ha : g a with
    | none => rw [ha] at h; cases h
    | some b =>
      cases hl : l.mapM g with
      | none => rw [ha, hl] at h; cases h
      | some r' =>
        rw [ha, hl] at h
        injection h with h
        subst h
        rw [List.map_cons, List.map_cons, ih hl, ha]

theorem mapM_id {g : Nat → Option Nat} {l : List Nat} (h : ∀ a ∈ l, g a = some a) : l.mapM g = some l := by
  induction l with
  | nil => rfl
  | cons a l ih =>
    rw [List.mapM_cons, h a List.mem_cons_self, ih (fun b hb => h b (List.mem_cons_of_mem _ hb))]; rfl

theorem mapM_none {α β : Type} {g : α → Option β} {l : List α} (h : ∃ a ∈ l, g a = none) : l.mapM g = none := by
  cases hm : l.mapM g with
  | none => rfl
  | some r =>
    obtain ⟨a, ha, hg⟩ := h
    have := mapM_some hm
    have h1 : none ∈ r.map some := by rw [← this, ← hg]; exact List.mem_map.mpr ⟨a, ha, rfl⟩
    obtain ⟨x, _, hx⟩ := List.mem_map.mp h1
    cases hx

theorem mapM_back {α : Type} {g : α → Option α} {l r : List α} (hg : ∀ a b, g a = some b → b = a) (h : l.mapM g = some r) : r = l ∧ ∀ a ∈ l, g a = some a := by
  induction l generalizing r with
  | nil => simp at h; exact ⟨h, fun _ ha => nomatch ha⟩
  | cons a l ih =>
    rw [List.mapM_cons] at h
    cases ha : g a with
    | none => rw [ha] at h; cases h
    | some b =>
      cases hl : l.mapM g with
      | none => rw [ha, hl] at h; cases h
      | some r' =>
        rw [ha, hl] at h
        injection h with h
        obtain ⟨e, h2⟩ := ih hl
        subst h; subst e
        have := hg a b ha
        subst this
        refine ⟨rfl, ?_⟩
        intro c hc
        rcases List.mem_cons.mp hc with rfl | hc
        · exact ha
        · exact h2 c hc

/-- Tables whose first half is ASCII, and whose other half is not. -/
theorem byteOf_ascii {table : Nat → Option Nat} (h : ∀ b, b < 128 → table b = some b) {c : Nat} (hc : c < 128) : byteOf table c = some c := by
  have key : ∀ n, n ≤ 128 → c < n → (List.range n).find? (fun b => table b == some c) = some c := by
    intro n
    induction n with
    | zero => intro _ h; omega
    | succ n ih =>
      intro hn hcn
      rw [List.range_succ, List.find?_append]
      by_cases e : c = n
      · have : (List.range n).find? (fun b => table b == some c) = none := by
          rw [List.find?_eq_none]
          intro x hx
          rw [List.mem_range] at hx
          rw [h x (by omega)]
          simp; omega
        rw [this, e]
        simp [h n (by omega)]
      · rw [ih (by omega) (by omega)]; rfl
  unfold byteOf
  have : List.range 256 = List.range 128 ++ (List.range 128).map (· + 128) := by decide +kernel
  rw [this, List.find?_append, key 128 (by omega) hc]; rfl

theorem singleByte_compatible {table : Nat → Option Nat} (h : ∀ b, b < 128 → table b = some b) (lineEnd : PyStr) :
    AsciiCompatible (.singleByte table lineEnd) where
  decode _ hb := mapM_id (fun a ha => h a (hb a ha))
  encode _ hs := mapM_id (fun a ha => byteOf_ascii h (hs a ha))

theorem asciiTable_self {a b : Nat} (h : asciiTable a = some b) : b = a ∧ a < 128 := by
  unfold asciiTable at h
  split at h
  · injection h with h; exact ⟨h.symm, ‹_›⟩
  · cases h

theorem byteOf_asciiTable {a b : Nat} (h : byteOf asciiTable a = some b) : b = a ∧ a < 128 := by
  unfold byteOf at h
  have h1 := List.find?_some h
  simp only [beq_iff_eq] at h1
  obtain ⟨rfl, h2⟩ := asciiTable_self h1
  exact ⟨rfl, h2⟩

theorem ascii_decode {b : Bytes} {s : PyStr} (h : Platform.ascii.decode b = some s) : s = b ∧ Ascii b := by
  obtain ⟨h1, h2⟩ := mapM_back (fun a b h => (asciiTable_self h).1) h
  exact ⟨h1, fun c hc => (asciiTable_self (h2 c hc)).2⟩

theorem ascii_encode {b : Bytes} {s : PyStr} (h : Platform.ascii.encode s = some b) : b = s ∧ Ascii s := by
  obtain ⟨h1, h2⟩ := mapM_back (fun a b h => (byteOf_asciiTable h).1) h
  exact ⟨h1, fun c hc => (byteOf_asciiTable (h2 c hc)).2⟩

theorem readJsonOn_ascii {b : Bytes} {v : Json} (h : readJsonOn .ascii b = .ok v) : readJson b = .ok v ∧ Ascii b := by
  cases hd : Platform.ascii.decode b with
  | none => unfold readJsonOn at h; rw [hd] at h; cases h
  | some s =>
    obtain ⟨rfl, ha⟩ := ascii_decode hd
    rw [readJsonOn_of_decode hd ((utf8Decode_iff _ _).mpr (utf8_ascii ha))] at h
    exact ⟨h, ha⟩

theorem newTextOn_ascii {f : LangBytes} {o : Option PyStr} (h : newTextOn .ascii f = .ok o) : newTextBytes f = .ok o := by
  unfold newTextOn at h
  unfold newTextBytes
  split at h
  · rename_i hs; rw [if_pos hs]; exact h
  · rename_i hs
    rw [if_neg hs]
    cases hr : readJsonOn .ascii f.source with
    | error e => rw [hr] at h; cases h
    | ok v =>
      rw [hr] at h
      rw [(readJsonOn_ascii hr).1]
      simp only [bind, Except.bind] at h ⊢
      cases hq : requisiteData v with
      | error e => rw [hq] at h; cases h
      | ok r =>
        rw [hq] at h
        cases r with
        | none => exact h
        | some r =>
          simp only at h ⊢
          cases he : extractJson r with
          | error e => rw [he] at h; cases h
          | ok d =>
            rw [he] at h
            simp only at h ⊢
            cases hx : f.supplementary with
            | none => rw [hx] at h; cases h
            | some b =>
              rw [hx] at h
              simp only at h ⊢
              cases hb : readJsonOn .ascii b with
              | error e => rw [hb] at h; cases h
              | ok w => rw [hb] at h; rw [(readJsonOn_ascii hb).1]; exact h

theorem writeOneOn_ascii {f : LangBytes} {T T' : Table Bytes} (h : writeOneOn .ascii f T = (T', none)) : writeOneBytes f T = (T', none) := by
  unfold writeOneOn at h
  unfold writeOneBytes
  cases ht : newTextOn .ascii f with
  | error e => rw [ht] at h; injection h with _ h; cases h
  | ok o =>
    rw [ht] at h
    rw [newTextOn_ascii ht]
    cases o with
    | none => exact h
    | some text =>
      simp only at h ⊢
      cases he : Platform.ascii.encode (lineEnds Platform.ascii.lineEnd text) with
      | none => rw [he] at h; injection h with _ h; cases h
      | some b =>
        rw [he] at h
        have e1 : lineEnds Platform.ascii.lineEnd text = text := lineEnds_lf text
        rw [e1] at he
        obtain ⟨rfl, ha⟩ := ascii_encode he
        rw [(utf8Encode_iff _ _).mpr (utf8_ascii ha)]
        exact h

theorem writeAllOn_ascii {fs : List LangBytes} {T T' : Table Bytes} (h : writeAllOn .ascii fs T = (T', none)) : writeAllBytes fs T = (T', none) := by
  induction fs generalizing T with
  | nil => exact h
  | cons f fs ih =>
    rw [writeAllOn] at h
    rw [writeAllBytes]
    rcases hw : writeOneOn .ascii f T with ⟨T1, o⟩
    rw [hw] at h
    cases o with
    | some e => injection h with _ h; cases h
    | none => rw [writeOneOn_ascii hw]; exact ih h

/-! ### Line ends -/

theorem subWordGo_mem {word new : PyStr} {c : Nat} : ∀ (s : PyStr) (b : Bool) (k : Nat), c ∈ subWordGo word new b k s → c ∈ new ∨ c ∈ s := by
  intro s
  induction s with
  | nil => intro b k h; cases k <;> cases h
  | cons d s ih =>
    intro b k h
    cases k with
    | succ k =>
      rw [subWordGo] at h
      rcases ih _ _ h with h | h
      · exact .inl h
      · exact .inr (List.mem_cons_of_mem _ h)
    | zero =>
      rw [subWordGo] at h
      split at h
      · rcases List.mem_append.mp h with h | h
        · exact .inl h
        · rcases ih _ _ h with h | h
          · exact .inl h
          · exact .inr (List.mem_cons_of_mem _ h)
      · rcases List.mem_cons.mp h with h | h
        · exact .inr (h ▸ List.mem_cons_self)
        · rcases ih _ _ h with h | h
          · exact .inl h
          · exact .inr (List.mem_cons_of_mem _ h)

theorem join_mem' {sep : PyStr} {c : Nat} : ∀ (l : List PyStr), c ∈ join sep l → c ∈ sep ∨ ∃ x ∈ l, c ∈ x := by
  intro l
  induction l with
  | nil => intro h; cases h
  | cons a l ih =>
    cases l with
    | nil => intro h; exact .inr ⟨a, List.mem_cons_self, h⟩
    | cons b l =>
      intro h
      rw [join] at h
      · rcases List.mem_append.mp h with h | h
        · rcases List.mem_append.mp h with h | h
          · exact .inr ⟨a, List.mem_cons_self, h⟩
          · exact .inl h
        · rcases ih h with h | ⟨x, hx, h⟩
          · exact .inl h
          · exact .inr ⟨x, List.mem_cons_of_mem _ hx, h⟩

theorem jsonChar_cr (c : Nat) : 13 ∉ jsonChar c := by
  unfold jsonChar
  repeat' split
  all_goals try decide
  · have h16 : ∀ n, n < 16 → hexDigit n ≠ 13 := by intro n _; unfold hexDigit; split <;> omega
    have h1 := h16 (c / 16) (by omega)
    have h2 := h16 (c % 16) (by omega)
    simp only [List.mem_cons, List.not_mem_nil, or_false, not_or]
    exact ⟨by decide, by decide, by decide, by decide, h1.symm, h2.symm⟩
  · simp only [List.mem_cons, List.not_mem_nil, or_false]
    omega

theorem jsonStr_cr (s : PyStr) : 13 ∉ jsonStr s := by
  unfold jsonStr
  simp only [List.mem_append, List.mem_cons, List.mem_flatMap, List.not_mem_nil, or_false]
  rintro ((h | ⟨c, _, h⟩) | h)
  · exact absurd h (by decide)
  · exact jsonChar_cr c h
  · exact absurd h (by decide)

theorem reprInt_cr (n : Int) : 13 ∉ reprInt n := by
  have hd : ∀ n, 13 ∉ decDigits n := by
    intro n h
    obtain ⟨h1, h2⟩ := (decDigits_isDigit n).2 13 h
    omega
  unfold reprInt
  split
  · simp only [List.mem_cons, not_or]; exact ⟨by decide, hd _⟩
  · exact hd _

theorem nl_cr (k : Nat) : 13 ∉ nl k := by
  unfold nl
  simp only [List.mem_cons, List.mem_replicate, not_or, not_and]
  exact ⟨by decide, fun _ => by decide⟩

theorem append_cr {a b : PyStr} (ha : 13 ∉ a) (hb : 13 ∉ b) : 13 ∉ a ++ b := by
  rw [List.mem_append]; exact fun h => h.elim ha hb

theorem join_cr {sep : PyStr} {l : List PyStr} (hs : 13 ∉ sep) (hl : ∀ x ∈ l, 13 ∉ x) : 13 ∉ join sep l := by
  intro h
  rcases join_mem' l h with h | ⟨x, hx, h⟩
  · exact hs h
  · exact hl x hx h

theorem jsonVal_cr (v : Val) : 13 ∉ jsonVal v := by
  have hsep : 13 ∉ u!"," ++ nl 8 := append_cr (by decide) (nl_cr 8)
  cases v with
  | table t =>
    show 13 ∉ jsonTable t
    unfold jsonTable
    split
    · decide
    · refine append_cr (append_cr (append_cr (append_cr (by decide) (nl_cr 8)) (join_cr hsep ?_)) (nl_cr 4)) (by decide)
      intro x hx
      obtain ⟨e, _, rfl⟩ := List.mem_map.mp hx
      exact append_cr (append_cr (jsonStr_cr _) (by decide)) (reprInt_cr _)
  | list l =>
    show 13 ∉ jsonList l
    unfold jsonList
    split
    · decide
    · refine append_cr (append_cr (append_cr (append_cr (by decide) (nl_cr 8)) (join_cr hsep ?_)) (nl_cr 4)) (by decide)
      intro x hx
      obtain ⟨e, _, rfl⟩ := List.mem_map.mp hx
      exact jsonStr_cr _
  | flag b => show 13 ∉ jsonBool b; cases b <;> decide

theorem dumps_cr (d : Table Val) : 13 ∉ dumps d := by
  unfold dumps
  refine append_cr (append_cr (append_cr (append_cr (by decide) (nl_cr 4)) (join_cr (append_cr (by decide) (nl_cr 4)) ?_)) (nl_cr 0)) (by decide)
  intro x hx
  obtain ⟨e, _, rfl⟩ := List.mem_map.mp hx
  exact append_cr (append_cr (jsonStr_cr _) (by decide)) (jsonVal_cr _)

/-- The text of a module has no carriage return. -/
theorem emit_cr (o : Output) : 13 ∉ emit o := by
  unfold emit
  refine append_cr (append_cr (by decide) ?_) (by decide)
  intro h
  rcases subWordGo_mem _ _ _ h with h | h
  · exact absurd h (by decide)
  · rcases subWordGo_mem _ _ _ h with h | h
    · exact absurd h (by decide)
    · exact dumps_cr _ h

theorem newlinesGo_noCr {s : PyStr} (h : 13 ∉ s) : newlinesGo false s = s := by
  induction s with
  | nil => rfl
  | cons c s ih =>
    rw [List.mem_cons, not_or] at h
    rw [newlinesGo, if_neg (fun e => h.1 e.symm), if_neg (fun e => absurd e.2 (by decide)), ih h.2]

theorem newlines_crlf {s : PyStr} (h : 13 ∉ s) : newlines (lineEnds [13, 10] s) = s := by
  unfold newlines
  induction s with
  | nil => rfl
  | cons c s ih =>
    rw [List.mem_cons, not_or] at h
    have e : lineEnds [13, 10] (c :: s) = (if c = 10 then [13, 10] else [c]) ++ lineEnds [13, 10] s := rfl
    rw [e]
    split
    · rename_i hc
      subst hc
      show newlinesGo false (13 :: 10 :: lineEnds [13, 10] s) = _
      rw [newlinesGo, if_pos rfl, newlinesGo, if_neg (by decide), if_pos ⟨rfl, rfl⟩, ih h.2]
    · show newlinesGo false (c :: lineEnds [13, 10] s) = _
      rw [newlinesGo, if_neg (fun e => h.1 e.symm), if_neg (fun e => absurd e.2 (by decide)), ih h.2]

theorem utf8_crlf {s : PyStr} {b : Bytes} (h : Utf8 s b) : ∃ b', Utf8 (lineEnds [13, 10] s) b' := by
  induction h with
  | nil => exact ⟨[], .nil⟩
  | @cons c b s bs hc _ ih =>
    obtain ⟨b', hb⟩ := ih
    have e : lineEnds [13, 10] (c :: s) = (if c = 10 then [13, 10] else [c]) ++ lineEnds [13, 10] s := rfl
    rw [e]
    split
    · exact ⟨_, .cons (.one (c := 13) (by decide)) (.cons (.one (c := 10) (by decide)) hb)⟩
    · exact ⟨_, .cons hc hb⟩

/-! ### Which steps can raise `FileNotFoundError` -/

theorem foldlM_error {α β : Type} {g : β → α → FRes β} {e : FileErr} : ∀ (l : List α) (d : β), l.foldlM g d = .error e → ∃ d' a, g d' a = .error e := by
  intro l
  induction l with
  | nil => intro d h; cases h
  | cons a l ih =>
    intro d h
    rw [List.foldlM_cons] at h
    cases hg : g d a with
    | error e' => rw [hg] at h; injection h with h; subst h; exact ⟨d, a, hg⟩
    | ok d' => rw [hg] at h; exact ih d' h

theorem readJsonOn_noFile (p : Platform) (b : Bytes) : readJsonOn p b ≠ .error .noFile := by
  unfold readJsonOn
  split
  · intro h; cases h
  · split
    · intro h; cases h
    · intro h; cases h

theorem jget_noFile (d : Json) (k : PyStr) : jget d k ≠ .error .noFile := by
  unfold jget
  split
  · split
    · intro h; cases h
    · intro h; cases h
  · intro h; cases h

theorem requisite_noFile (v : Json) : requisiteData v ≠ .error .noFile := by
  unfold requisiteData
  split
  · intro h; cases h
  · intro h; cases h
  · rename_i e _ heq
    intro h
    injection h with h
    subst h
    simp only [bind, Except.bind] at heq
    cases h1 : jget v u!"rbnf" with
    | error e => rw [h1] at heq; injection heq with heq; subst heq; exact jget_noFile _ _ h1
    | ok a =>
      rw [h1] at heq
      simp only at heq
      cases h2 : jget a u!"rbnf" with
      | error e => rw [h2] at heq; injection heq with heq; subst heq; exact jget_noFile _ _ h2
      | ok b => rw [h2] at heq; exact jget_noFile _ _ heq

theorem extract_noFile (r : Json) : extractJson r ≠ .error .noFile := by
  have hl : ∀ {α : Type} (x : GRes α), liftGen x ≠ .error .noFile := by
    intro α x; cases x <;> (intro h; cases h)
  have hr : ∀ v d, extractRulesJson v d ≠ .error .noFile := by
    intro v d h
    unfold extractRulesJson at h
    split at h
    · obtain ⟨d', a, h⟩ := foldlM_error _ _ h
      split at h
      · exact hl _ h
      · cases h
    · cases h
  intro h
  unfold extractJson at h
  split at h
  · obtain ⟨d', a, h⟩ := foldlM_error _ _ h
    split at h
    · exact hr _ _ h
    · cases h
  · cases h

end NumberParser
