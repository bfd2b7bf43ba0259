import Verif.Proofs.Pipeline
import Verif.Props.Files
import Verif.Model.SourcesB

/-!
# C78: from the data files to the parser

The words of a generated data module reach the parser: what a module says about a word is what `parse_number` returns for
the word.  Specification: Verif/Spec/Module.lean.
-/

namespace NumberParser.Props
open NumberParser Gen Spec

/-- With the data modules of the repository, `parseNumberWith` is `parse_number`. -/
theorem c78_repository (l : PyStr) (hl : l ∈ supported) (s : PyStr) :
    parseNumberWith (mkLangData (file l)) s l = parseNumber s (some l) := by
  have key : ∀ ld, languageData l = .ok ld → parseNumberWith ld s l = parseNumber s (some l) := by
    intro ld h
    unfold parseNumberWith parseNumber
    simp only [resolveLanguage, bind, Except.bind, h]
    rfl
  exact key _ (supported_data hl)

/-- **C78** For any data module: a text of one word that is no conjunction has for `parse_number` the value that the tables give
to the word, and is no number if no table lists it. -/
theorem c78_word (i : Info) (l s t : PyStr) (hs : WordInput s) (ht : Tokens l (withoutApostrophes s) [t]) (hb : ¬ BlankForm t)
    (hk : form t ∉ i.skipTokens) (hv : ∀ v, Means i (form t) v → v < 10 ^ 4300) :
    (∀ v, parseNumberWith (mkLangData i) s l = .ok (some v) ↔ Means i (form t) v) ∧
    (parseNumberWith (mkLangData i) s l = .ok none ↔ MeansNothing i (form t)) := by
  have := numberWith_one i l s t hs ht hb (fun v h => hv v (meaning_some.mp h))
  rw [if_neg hk] at this
  rw [this]
  refine ⟨fun v => ?_, ?_⟩
  · rw [← meaning_some]; constructor
    · intro h; injection h
    · intro h; rw [h]
  · rw [← meaning_none]; constructor
    · intro h; injection h
    · intro h; rw [h]

/-- **C78** A word that is listed both as a number and as a conjunction is read as 0. -/
theorem c78_both (i : Info) (l s t : PyStr) (hs : WordInput s) (ht : Tokens l (withoutApostrophes s) [t]) (hb : ¬ BlankForm t)
    (hk : form t ∈ i.skipTokens) (v : Nat) (hm : Means i (form t) v) (hv : v < 10 ^ 4300) :
    parseNumberWith (mkLangData i) s l = .ok (some 0) := by
  rw [numberWith_one i l s t hs ht hb (fun v' h => by rw [meaning_some.mpr hm] at h; injection h with h; subst h; exact hv),
    if_pos hk, meaning_some.mpr hm]
  rfl

theorem info_table (t : Table Int) (ht : ∀ e ∈ t, 0 ≤ e.2) (d : Table Val) (key : PyStr) (h : Table.get? d key = some (.table t)) :
    infoTable d key = some (t.map (fun e => (e.1, e.2.toNat))) := by
  unfold infoTable
  rw [h]
  simp only
  rw [if_pos (by simpa using fun a b h => ht (a, b) h)]

/-- The tables of a module, as the parser reads them. -/
def tablesOf (out : Output) (long : Bool) : Info where
  unitNumbers := out.tables.unit.map (fun e => (e.1, e.2.toNat))
  directNumbers := out.tables.direct.map (fun e => (e.1, e.2.toNat))
  tens := out.tables.tens.map (fun e => (e.1, e.2.toNat))
  hundreds := out.tables.hundreds.map (fun e => (e.1, e.2.toNat))
  bigPowersOfTen := out.tables.big.map (fun e => (e.1, e.2.toNat))
  skipTokens := out.skipTokens
  useLongScale := long

/-- **C78** The parser reads from a generated module the tables that the generator computed. -/
theorem c78_loaded (sets : RuleSets) (supp : Supplementary) (out : Output) (h : generate sets supp = .ok out)
    (hw : ∀ t, ∀ e ∈ theTable out.tables t, Harmless e.1 ∧ 0 ≤ e.2) (hk : ∀ w ∈ out.skipTokens, Harmless w) :
    moduleInfo (emit out) = out.useLongScale.map (tablesOf out) := by
  unfold moduleInfo
  rw [c51_read_back sets supp out h (fun t e he => (hw t e he).1) hk]
  simp only [Option.bind_eq_bind, Option.bind_some]
  have hn := fun t e he => (hw t e he).2
  rw [info_table out.tables.unit (hn .unit) _ _ (by rfl), info_table out.tables.direct (hn .direct) _ _ (by rfl),
    info_table out.tables.tens (hn .tens) _ _ (by rfl), info_table out.tables.hundreds (hn .hundreds) _ _ (by rfl),
    info_table out.tables.big (hn .big) _ _ (by rfl)]
  cases out.useLongScale <;> rfl

/-- **C78** Without a scale flag in the supplementary file, the generated module cannot be used by the parser. -/
theorem c78_without_scale (sets : RuleSets) (supp : Supplementary) (out : Output) (h : generate sets supp = .ok out)
    (hs : supp.useLongScale = none)
    (hw : ∀ t, ∀ e ∈ theTable out.tables t, Harmless e.1 ∧ 0 ≤ e.2) (hk : ∀ w ∈ out.skipTokens, Harmless w) :
    moduleInfo (emit out) = none := by
  rw [c78_loaded sets supp out h hw hk, (c47_skip sets supp out h).2.2, hs]
  rfl

theorem means_unique {out : Output} {long : Bool} {f w : PyStr} {n : Nat} {t : TableName} (hm : (w, (n : Int)) ∈ theTable out.tables t)
    (hw : stripAccents w = f) (hc : ∀ t' w' m, (w', m) ∈ theTable out.tables t' → stripAccents w' = f → m = (n : Int)) (v : Nat) :
    Means (tablesOf out long) f v ↔ v = n := by
  have key : ∀ v, Means (tablesOf out long) f v → v = n := by
    rintro v ⟨e, tb, r, he, ⟨a, w', b, rfl, hw', _⟩, _⟩
    have hmem : (w', v) ∈ a ++ (w', v) :: b := by simp
    have htab : ∃ t', a ++ (w', v) :: b = (theTable out.tables t').map (fun e => (e.1, e.2.toNat)) := by
      have : a ++ (w', v) :: b ∈ e ++ (a ++ (w', v) :: b) :: r := by simp
      rw [← he] at this
      simp only [List.mem_cons, List.not_mem_nil, or_false] at this
      rcases this with h | h | h | h | h
      · exact ⟨.direct, h⟩
      · exact ⟨.unit, h⟩
      · exact ⟨.tens, h⟩
      · exact ⟨.hundreds, h⟩
      · exact ⟨.big, h⟩
    obtain ⟨t', ht'⟩ := htab
    rw [ht', List.mem_map] at hmem
    obtain ⟨⟨w'', m⟩, h1, h2⟩ := hmem
    simp only [Prod.mk.injEq] at h2
    obtain ⟨rfl, rfl⟩ := h2
    rw [hc t' _ m h1 hw']
    rfl
  refine ⟨key v, ?_⟩
  rintro rfl
  cases hx : meaning (tablesOf out long) f with
  | some x => rw [← key x (meaning_some.mp hx)]; exact meaning_some.mp hx
  | none =>
    have hno := meaning_none.mp hx
    have hin : (w, v) ∈ (theTable out.tables t).map (fun e => (e.1, e.2.toNat)) := List.mem_map.mpr ⟨(w, (v : Int)), hm, rfl⟩
    exfalso
    cases t with
    | unit => exact hno (tablesOf out long).unitNumbers (by simp) ⟨_, hin, hw⟩
    | direct => exact hno (tablesOf out long).directNumbers (by simp) ⟨_, hin, hw⟩
    | tens => exact hno (tablesOf out long).tens (by simp) ⟨_, hin, hw⟩
    | hundreds => exact hno (tablesOf out long).hundreds (by simp) ⟨_, hin, hw⟩
    | big => exact hno (tablesOf out long).bigPowersOfTen (by simp) ⟨_, hin, hw⟩

/-- **C78** From the source files to the parser: after a run without exception on the two files of a language (with a scale flag,
and no control characters or whole words "true" and "false" in the words), the bytes in its target are those of a module that the
parser can load, and with it `parse_number` of a supplementary word, in any spelling with the same letters, is the value given in
the supplementary file (without its fraction digits), unless the word is also a conjunction or listed with another value. -/
theorem c78_pipeline (f : LangBytes) (T T' : Table Bytes) (hrun : writeOneBytes f T = (T', none)) (hn : ¬ SpecialName f.name)
    (sets : RuleSets) (supp : Supplementary) (hf : Holds f sets supp) (out : Output) (hg : generate sets supp = .ok out)
    (hw : ∀ t, ∀ e ∈ theTable out.tables t, Harmless e.1 ∧ 0 ≤ e.2) (hk : ∀ w ∈ supp.skipTokens, Harmless w)
    (long : Bool) (hlong : supp.useLongScale = some long) :
    ∃ text bytes info, Table.get? T' (moduleFile f.name) = some bytes ∧ Utf8 text bytes ∧ moduleInfo text = some info ∧
      ∀ (t : TableName) (w : PyStr) (v : JNum) (n : Nat), (w, v) ∈ theTable supp.tables t → Truncated v n → n < 10 ^ 4300 →
      ∀ l s word : PyStr, WordInput s → Tokens l (withoutApostrophes s) [word] → ¬ BlankForm word → form word = stripAccents w →
        form word ∉ supp.skipTokens → (∀ t' w' m, (w', m) ∈ theTable out.tables t' → stripAccents w' = stripAccents w → m = (n : Int)) →
        parseNumberWith (mkLangData info) s l = .ok (some n) := by
  have hsk := c47_skip sets supp out hg
  have hkk : ∀ w ∈ out.skipTokens, Harmless w := fun w h => hk w (hsk.1.mem_iff.mp h)
  have hload : moduleInfo (emit out) = some (tablesOf out long) := by
    rw [c78_loaded sets supp out hg hw hkk, hsk.2.2, hlong]; rfl
  have hmod : ModuleOf f (emit out) := ⟨hn, sets, supp, out, hf, hg, rfl⟩
  have hnew := newTextBytes_of f (emit out) hmod
  rcases c66_target f (usual_of_holds hf) T T' hrun with ⟨hl, _⟩ | ⟨text, bytes, hm, hu, hget, _⟩
  · rw [(c66_left_out f).mpr hl] at hnew; cases hnew
  · have he : text = emit out := by
      have := newTextBytes_of f text hm
      rw [hnew] at this
      injection this with this
      injection this with this
      exact this.symm
    subst he
    refine ⟨_, bytes, _, hget, hu, hload, ?_⟩
    intro t w v n hwv htr hlt l s word hs ht hb hform hns hc
    have hmem := (c66_words f sets supp out hf hg t w n).mpr (.inl ⟨v, hwv, htr⟩)
    have hmeans := fun x => means_unique (long := long) hmem hform.symm (fun t' w' m h1 h2 => hc t' w' m h1 (h2.trans hform)) x
    refine ((c78_word (tablesOf out long) l s word hs ht hb (fun h => hns (hsk.1.mem_iff.mp h)) ?_).1 n).mpr ((hmeans n).mpr rfl)
    intro x hx
    rw [(hmeans x).mp hx]
    exact hlt

/-- The small language of `Props/Files`, with a scale flag -/
def smallScaled : LangBytes := { small with supplementary := some (unpackAll [
  b!"{\"UNIT_NUMBERS\": {\"one\": 1.9}, \"DIRECT_NUMBERS\": {}, \"TENS\": {}, \"HUNDREDS\": {},",
  b!" \"BIG_POWERS_OF_TEN\": {\"foo\": 1e3}, \"SKIP_TOKENS\": [\"and\"], \"USE_LONG_SCALE\": false}"]) }

set_option maxRecDepth 100000 in
/-- The whole way on this language, computed: "foo" was given as 1e3, "one" as 1.9; the rules give "два". -/
example : ((writeOneBytes smallScaled []).2 = none) ∧
    ((((Table.get? (writeOneBytes smallScaled []).1 u!"xx.py").bind utf8Decode).bind moduleInfo).map (fun i =>
      [u!"Foo", u!"one", u!"ДВА", u!"two"].map (fun w => parseNumberWith (mkLangData i) w u!"xx"))) =
    some [.ok (some 1000), .ok (some 1), .ok (some 2), .ok none] := by
  decide +kernel

set_option maxRecDepth 100000 in
/-- **C78** Table words with capital letters are never recognised, since the words of a text are compared in small letters. The German
data (not enabled) lists its scale words with capitals: with it "drei" would be 3, but "Millionen" no number. -/
theorem c78_capitals : (u!"Millionen", 1000000) ∈ Sources.deModule.tables.big ∧
    [u!"drei", u!"Millionen", u!"millionen", u!"MILLIONEN"].map (fun w => parseNumberWith (mkLangData (tablesOf Sources.deModule true)) w u!"de") =
      [.ok (some 3), .ok none, .ok none, .ok none] := by
  decide +kernel

end NumberParser.Props
