import Verif.Proofs.FileRuns
import Verif.Proofs.Double
import Verif.Model.Bytes
import Verif.Props.Emit

/-!
# C64-C67: the generator on the level of files

Specification: Verif/Spec/Utf8.lean, Verif/Spec/Json.lean, Verif/Spec/Double.lean, Verif/Spec/Files.lean.
-/

namespace NumberParser.Props

open NumberParser Gen Spec

/-! ### C64: reading JSON files -/

/-- **C64** Reading a file gives a value exactly if its bytes are a JSON text in UTF-8 with this value. -/
theorem c64_read (bytes : Bytes) (v : Json) : readJson bytes = .ok v ↔ JsonFile bytes v := readJson_iff bytes v

/-- **C64** Otherwise there is a `ValueError`. -/
theorem c64_error (bytes : Bytes) : readJson bytes = .error .value ↔ ¬ ∃ v, JsonFile bytes v := readJson_error bytes

/-- **C64** A file has one value at most. -/
theorem c64_meaning (bytes : Bytes) (v v' : Json) (h : JsonFile bytes v) (h' : JsonFile bytes v') : v = v' := jsonFile_unique h h'

/-- **C64** White space around the text does not matter. -/
theorem c64_blanks (s w w' : PyStr) (v : Json) (hw : JsonBlanks w) (hw' : JsonBlanks w') (h : JsonText s v) : JsonText (w ++ (s ++ w')) v := by
  obtain ⟨a, t, b, ha, ht, hb, rfl⟩ := h
  refine ⟨w ++ a, t, b ++ w', ?_, ht, ?_, by simp [List.append_assoc]⟩
  · intro c hc
    rcases List.mem_append.mp hc with h | h
    · exact hw c h
    · exact ha c h
  · intro c hc
    rcases List.mem_append.mp hc with h | h
    · exact hb c h
    · exact hw' c h

/-- **C64** If a name occurs several times in an object, the last value counts. -/
theorem c64_duplicates (ms : List (PyStr × Json)) (k : PyStr) (v : Json) :
    Entry (.obj (dictionary ms)) k v ↔ ∃ before after, ms = before ++ (k, v) :: after ∧ ∀ e ∈ after, e.1 ≠ k := by
  rw [← jget_ok]
  have hj : jget (.obj (dictionary ms)) k = .ok v ↔ Table.get? (dictionary ms) k = some v := by
    unfold jget
    simp only
    cases Table.get? (dictionary ms) k with
    | none => exact ⟨fun h => (by cases h), fun h => (by cases h)⟩
    | some w =>
      constructor
      · intro h; injection h with h; rw [h]
      · intro h; injection h with h; rw [h]; rfl
  rw [hj]
  have gen : ∀ (ms : List (PyStr × Json)) (d : List (PyStr × Json)),
      Table.get? (ms.foldl (fun d m => Table.set d m.1 m.2) d) k = some v ↔
        (∃ before after, ms = before ++ (k, v) :: after ∧ ∀ e ∈ after, e.1 ≠ k) ∨ ((∀ e ∈ ms, e.1 ≠ k) ∧ Table.get? d k = some v) := by
    intro ms
    induction ms with
    | nil =>
      intro d
      constructor
      · intro h; exact .inr ⟨fun _ h => (by cases h), h⟩
      · rintro (⟨a, b, h, _⟩ | ⟨_, h⟩)
        · cases a <;> cases h
        · exact h
    | cons m ms ih =>
      intro d
      rw [List.foldl_cons, ih, Table.get?_set]
      constructor
      · rintro (⟨a, b, rfl, h⟩ | ⟨h1, h2⟩)
        · exact .inl ⟨m :: a, b, rfl, h⟩
        · by_cases hk : m.1 = k
          · rw [if_pos hk] at h2
            injection h2 with h2
            exact .inl ⟨[], ms, by rw [← hk, ← h2]; rfl, h1⟩
          · rw [if_neg hk] at h2
            refine .inr ⟨fun e he => ?_, h2⟩
            rcases List.mem_cons.mp he with rfl | he
            · exact hk
            · exact h1 e he
      · rintro (⟨a, b, h, hb⟩ | ⟨h1, h2⟩)
        · cases a with
          | nil =>
            injection h with e1 e2
            subst e1; subst e2
            exact .inr ⟨hb, by rw [if_pos rfl]⟩
          | cons x a =>
            injection h with e1 e2
            exact .inl ⟨a, b, e2, hb⟩
        · refine .inr ⟨fun e he => h1 e (List.mem_cons_of_mem _ he), ?_⟩
          rw [if_neg (h1 m (by simp))]; exact h2
  unfold dictionary
  rw [gen]
  simp [Table.get?]

set_option maxRecDepth 100000 in
/-- Carriage returns, escapes, a pair of surrogates, a repeated name, floats -/
example : readJson (unpackAll [b!" {\"a\":\r\n [1, -2.5e1,\t\"\\u00e9é\\ud83d\\ude00\\\"\"], \"b\": null, \"a\" : true}\r\n"]) =
    .ok (.obj [(u!"a", .bool true), (u!"b", .null)]) := rfl

set_option maxRecDepth 100000 in
example : readJson (unpackAll [b!"[1, -2.5e1, \"\\u00e9é\\ud83d\\ude00\\\"\\ud800\"]"]) =
    .ok (.arr [.int 1, .float (.fin ⟨-25, 0⟩), .str [233, 233, 0x1f600, 34, 0xd800]]) := rfl

set_option maxRecDepth 100000 in
/-- Not JSON: a comma too much, a leading zero, a byte that is not UTF-8, a byte order mark -/
example : readJson (unpackAll [b!"[1,]"]) = .error .value ∧ readJson (unpackAll [b!"01"]) = .error .value ∧
    readJson [34, 0xff, 34] = .error .value ∧ readJson [0xef, 0xbb, 0xbf, 49] = .error .value ∧ readJson [] = .error .value :=
  ⟨rfl, rfl, rfl, rfl, rfl⟩

/-! ### C65: the value of a number -/

/-- **C65** A JSON number with a fraction or an exponent has the value of the double nearest to `digits * 10 ^ e`, ties to even;
beyond the range of doubles it is infinite.  A minus sign changes the sign. -/
theorem c65_nearest (digits : Nat) (e : Int) (x : JFloat) :
    (decimalFloat false digits e = x ↔ DoubleOf (digits * 10 ^ e.toNat) (10 ^ (-e).toNat) x) ∧
    decimalFloat true digits e = (decimalFloat false digits e).neg := by
  refine ⟨?_, rfl⟩
  unfold decimalFloat
  exact nearestDouble_iff (Nat.pow_pos (by decide))

/-- **C65** A whole number with at most 53 significant binary digits keeps its value exactly. -/
theorem c65_exact (digits e m k : Nat) (hm : m < 2 ^ 53) (h : digits * 10 ^ e = m * 2 ^ k) (hlt : m * 2 ^ k < 2 ^ 1024) :
    decimalFloat false digits e = .fin ⟨((digits * 10 ^ e : Nat) : Int), 0⟩ := by
  unfold decimalFloat
  rw [Int.toNat_natCast, show (-(e : Int)).toNat = 0 by omega, Nat.pow_zero, h]
  exact nearestDouble_exact ⟨m, k, hm, rfl⟩ hlt

/-- **C65** In particular the powers of ten up to `1e22`. -/
theorem c65_powers (k : Nat) (hk : k ≤ 22) : decimalFloat false 1 k = .fin ⟨((10 ^ k : Nat) : Int), 0⟩ := by
  have h5 : 5 ^ k < 2 ^ 53 := Nat.lt_of_le_of_lt (Nat.pow_le_pow_right (by decide) hk) (by decide)
  have hp : 1 * 10 ^ k = 5 ^ k * 2 ^ k := by rw [Nat.one_mul, ← Nat.mul_pow]
  have := c65_exact 1 k (5 ^ k) k h5 hp ?_
  · rw [this, Nat.one_mul]
  · rw [← Nat.mul_pow]
    have h1 : 10 ^ k ≤ 10 ^ 22 := Nat.pow_le_pow_right (by decide) hk
    have h2 : (10 : Nat) ^ 22 < 2 ^ 80 := by decide
    have h3 : (2 : Nat) ^ 80 ≤ 2 ^ 1024 := Nat.pow_le_pow_right (by decide) (by decide)
    exact Nat.lt_of_lt_of_le (Nat.lt_of_le_of_lt h1 h2) h3

set_option maxRecDepth 100000 in
/-- `1e23` is not exact, `1e400` is infinite, halfway cases go to the even number; `5e-324` is the smallest double. -/
theorem c65_inexact : decimalFloat false 1 23 = .fin ⟨99999999999999991611392, 0⟩ ∧ decimalFloat false 1 400 = .inf false ∧
    decimalFloat false (2 ^ 53 + 1) 0 = .fin ⟨2 ^ 53, 0⟩ ∧ decimalFloat false (2 ^ 53 + 3) 0 = .fin ⟨2 ^ 53 + 4, 0⟩ ∧
    decimalFloat false 5 (-324) = .fin ⟨1, 1074⟩ ∧ decimalFloat false 25 (-1) = .fin ⟨5, 1⟩ := by decide +kernel

/-! ### C66: one language -/

/-- **C66** A module is written for a language exactly if its two files hold rule sets and supplementary data for which the generator
of C46, C47, C51 and C53 gives an output; the text of the module is that of C51.  (`Usual`: the supplementary file has no values of
unexpected types with which Python would go on; see Verif/Spec/Files.lean.) -/
theorem c66_module (f : LangBytes) (hu : Usual f) (text : PyStr) : newTextBytes f = .ok (some text) ↔ ModuleOf f text :=
  newTextBytes_some f hu text

/-- **C66** A source file is passed over without exception exactly if it has one of the two special names or is a JSON file
without spellout rules. -/
theorem c66_left_out (f : LangBytes) : newTextBytes f = .ok none ↔ LeftOutBytes f := newTextBytes_none f

/-- **C66** The result depends only on the name and the JSON values of the files, not on their layout. -/
theorem c66_layout (f g : LangBytes) (hn : f.name = g.name) (hs : ∀ v, JsonFile f.source v ↔ JsonFile g.source v)
    (hx : (f.supplementary = none ↔ g.supplementary = none) ∧
      ∀ b b', f.supplementary = some b → g.supplementary = some b' → ∀ v, JsonFile b v ↔ JsonFile b' v) :
    newTextBytes f = newTextBytes g := by
  have key : ∀ b b', (∀ v, JsonFile b v ↔ JsonFile b' v) → readJson b = readJson b' := by
    intro b b' h
    cases hr : readJson b with
    | ok v => exact (((readJson_iff b' v).mpr ((h v).mp ((readJson_iff b v).mp hr)))).symm
    | error e =>
      have hno : ¬ ∃ v, JsonFile b v := fun ⟨v, hv⟩ => by rw [(readJson_iff b v).mpr hv] at hr; cases hr
      have he := (readJson_error b).mpr hno
      rw [hr] at he
      rw [he]
      exact ((readJson_error b').mpr (fun ⟨v, hv⟩ => hno ⟨v, (h v).mpr hv⟩)).symm
  unfold newTextBytes
  rw [hn, key _ _ hs]
  cases hf : f.supplementary with
  | none => rw [(hx.1).mp hf]
  | some b =>
    cases hg : g.supplementary with
    | none => rw [(hx.1).mpr hg] at hf; cases hf
    | some b' =>
      simp only
      rw [key b b' (hx.2 b b' hf hg)]

/-- **C66** A source file that is not JSON ends the run with a `ValueError`; nothing is written. -/
theorem c66_bad_source (f : LangBytes) (T : Table Bytes) (hn : ¬ SpecialName f.name) (h : ¬ ∃ v, JsonFile f.source v) :
    writeOneBytes f T = (T, some .value) := by
  have : newTextBytes f = .error .value := by
    unfold newTextBytes
    rw [if_neg (fun h => hn ((skipped_special _).mp h)), (readJson_error _).mpr h]
    rfl
  unfold writeOneBytes
  rw [this]

/-- **C66** If the rules can be read, a missing supplementary file ends the run with `FileNotFoundError`, one that is not JSON with
`ValueError`; nothing is written. -/
theorem c66_bad_supplementary (f : LangBytes) (T : Table Bytes) (hn : ¬ SpecialName f.name) (data : Json) (members : List (PyStr × Json))
    (sets : RuleSets) (h1 : JsonFile f.source data) (h2 : SpelloutRules data (.obj members)) (h3 : RuleSetsOf members sets)
    (h4 : ∀ r ∈ usedRules sets, ¬ RuleFails r.1 r.2) :
    (f.supplementary = none → writeOneBytes f T = (T, some .noFile)) ∧
    (∀ b, f.supplementary = some b → (¬ ∃ v, JsonFile b v) → writeOneBytes f T = (T, some .value)) := by
  obtain ⟨out, hout⟩ := (c53_generate sets ⟨Tables.empty, [], none⟩).mpr h4
  obtain ⟨d, hd, _⟩ := generate_merge.mp hout
  have he : extractJson (.obj members) = .ok d := by rw [extractJson_lift h3, hd]; rfl
  have hr := (readJson_iff _ _).mpr h1
  have hq := (requisite_some data _).mpr h2
  constructor
  · intro hf
    have : newTextBytes f = .error .noFile := by
      unfold newTextBytes
      rw [if_neg (fun h => hn ((skipped_special _).mp h)), hr]
      simp only [bind, Except.bind, hq, he, hf]
      rfl
    unfold writeOneBytes
    rw [this]
  · intro b hf hb
    have : newTextBytes f = .error .value := by
      unfold newTextBytes
      rw [if_neg (fun h => hn ((skipped_special _).mp h)), hr]
      simp only [bind, Except.bind, hq, he, hf, (readJson_error b).mpr hb]
    unfold writeOneBytes
    rw [this]

/-- **C66** Whatever ends the run, the targets are as before; only if the text has no UTF-8 form, the target of the language is left
empty.  (The target is opened for writing before the text is encoded.) -/
theorem c66_exception (f : LangBytes) (hu : Usual f) (T T' : Table Bytes) (e : FileErr) (h : writeOneBytes f T = (T', some e)) :
    (T' = T ∧ ¬ ∃ text, ModuleOf f text) ∨
    (e = .encode ∧ T' = Table.set T (moduleFile f.name) [] ∧ ∃ text, ModuleOf f text ∧ Unencodable text) := by
  rcases writeOne_cases f hu T with ⟨_, e'⟩ | ⟨b', hm, e'⟩ | ⟨t, h1, h2, e'⟩ | ⟨_, h1, x, _, e'⟩ <;> rw [h] at e' <;> injection e' with e1 e2
  · cases e2
  · cases e2
  · injection e2 with e2; exact .inr ⟨e2, e1, t, h1, h2⟩
  · exact .inl ⟨e1, h1⟩

/-- **C66** Without exception, the target of the language holds the module in UTF-8, or, if the source file is left out, is as
before; other targets are as before in any case. -/
theorem c66_target (f : LangBytes) (hu : Usual f) (T T' : Table Bytes) (h : writeOneBytes f T = (T', none)) :
    (LeftOutBytes f ∧ T' = T) ∨
    (∃ text bytes, ModuleOf f text ∧ Utf8 text bytes ∧ Table.get? T' (moduleFile f.name) = some bytes ∧
      ∀ name, name ≠ moduleFile f.name → Table.get? T' name = Table.get? T name) := by
  rcases writeOne_cases f hu T with ⟨hl, e'⟩ | ⟨b', ⟨text, hm, hu⟩, e'⟩ | ⟨t, h1, h2, e'⟩ | ⟨_, h1, x, _, e'⟩ <;> rw [h] at e' <;> injection e' with e1 e2
  · exact .inl ⟨hl, e1⟩
  · subst e1
    refine .inr ⟨text, b', hm, hu, by show Table.get? _ (targetName f.name) = _; rw [Table.get?_set, if_pos rfl], ?_⟩
    intro name hne
    rw [Table.get?_set, if_neg (fun e => hne e.symm)]
  · cases e2
  · cases e2

/-- **C66** The words of a module, from the files: exactly the words of the supplementary file, with their (truncated) numbers, and
those of the rules, where the last rule for a word counts and the supplementary file wins.  (C47 without its condition: no word
occurs twice in a table of a JSON file.) -/
theorem c66_words (f : LangBytes) (sets : RuleSets) (supp : Supplementary) (out : Output) (hf : Holds f sets supp)
    (h : generate sets supp = .ok out) (t : TableName) (w : PyStr) (n : Int) :
    (w, n) ∈ theTable out.tables t ↔
      (∃ v, (w, v) ∈ theTable supp.tables t ∧ Truncated v n) ∨
      (¬ InSupp supp t w ∧
        ∃ earlier r later, usedRules sets = earlier ++ r :: later ∧ Contributes r.1 r.2 t w n ∧
          ∀ r' ∈ later, ∀ m, ¬ Contributes r'.1 r'.2 t w m) := by
  obtain ⟨data, members, b, data', _, _, _, _, h5, h6⟩ := hf
  exact c47_entries sets supp out h (fun t => supplementary_distinct h5 h6 t) t w n

/-- Files of a small language -/
def smallSource : Bytes := unpackAll [b!"{\"rbnf\": {\"rbnf\": {\"SpelloutRules\": {\"%spellout-cardinal\": {\"2\": \"два;\"}, \"x\": 5}}}}"]
def smallSupplementary : Bytes := unpackAll [b!"{\"UNIT_NUMBERS\": {\"one\": 1.9}, \"DIRECT_NUMBERS\": {}, \"TENS\": {}, \"HUNDREDS\": {},",
  b!" \"BIG_POWERS_OF_TEN\": {\"foo\": 1e3}, \"SKIP_TOKENS\": [\"and\"]}"]
def small : LangBytes := ⟨u!"xx.json", smallSource, some smallSupplementary⟩

set_option maxRecDepth 100000 in
theorem small_text : newTextBytes small = .ok (some (emit ⟨⟨[(u!"one", 1), (u!"два", 2)], [], [], [], [(u!"foo", 1000)]⟩, [u!"and"], none⟩)) := by
  decide +kernel

set_option maxRecDepth 100000 in
theorem small_usual : Usual small := usual_of_check (by decide +kernel)

/-- The small language meets the conditions of `c66_module`, `c66_words` and `c66_bad_supplementary`. -/
theorem small_module : ∃ text, ModuleOf small text ∧ ∃ sets supp, Holds small sets supp := by
  have h := (c66_module small small_usual _).mp small_text
  refine ⟨_, h, ?_⟩
  obtain ⟨_, sets, supp, _, hh, _⟩ := h
  exact ⟨sets, supp, hh⟩

set_option maxRecDepth 100000 in
example : newTextBytes { small with supplementary := none } = .error .noFile ∧ newTextBytes { small with source := [1] } = .error .value ∧
    newTextBytes { small with source := unpackAll [b!"{\"rbnf\": {}}"] } = .ok none ∧
    newTextBytes { small with supplementary := some (unpackAll [b!"{\"UNIT_NUMBERS\": {}}"]) } = .error .key := by decide +kernel

/-- A skip token with a lone surrogate (an escape in the supplementary file) -/
def surrogateSupplementary : Bytes := unpackAll [b!"{\"UNIT_NUMBERS\": {}, \"DIRECT_NUMBERS\": {}, \"TENS\": {}, \"HUNDREDS\": {}, \"BIG_POWERS_OF_TEN\": {}, \"SKIP_TOKENS\": [\"\\ud800\"]}"]

set_option maxRecDepth 100000 in
/-- **C66** An old module is lost in this case. -/
theorem c66_lost : writeOneBytes { small with supplementary := some surrogateSupplementary } [(u!"xx.py", [1, 2, 3])] =
    ([(u!"xx.py", [])], some .encode) := by decide +kernel

/-! ### C67: runs over the directories -/

/-- **C67** A run ends without exception exactly if no source file fails. -/
theorem c67_success (fs : List LangBytes) (hu : ∀ f ∈ fs, Usual f) (T : Table Bytes) : (writeAllBytes fs T).2 = none ↔ ∀ f ∈ fs, ¬ FailsBytes f :=
  runBytes_success fs hu T

/-- **C67** A run without exception leaves behind, for every source file that is not left out, exactly the bytes of its module, made
from its own two files only, and does not touch any other target. -/
theorem c67_run (fs : List LangBytes) (hu : ∀ f ∈ fs, Usual f) (T : Table Bytes) (hd : DistinctTargetsBytes fs) (hs : (writeAllBytes fs T).2 = none) (name : PyStr) :
    (∀ f ∈ fs, moduleFile f.name = name → ∀ bytes, ModuleBytes f bytes → Table.get? (writeAllBytes fs T).1 name = some bytes) ∧
    ((∀ f ∈ fs, moduleFile f.name = name → LeftOutBytes f) → Table.get? (writeAllBytes fs T).1 name = Table.get? T name) := by
  refine ⟨?_, runBytes_other fs T name⟩
  rintro f hf rfl b hb
  exact runBytes_module hu hd hs hf hb

/-- **C67** Whatever the files hold, usual or not, and however the run ends: targets of no source file that is used are not touched. -/
theorem c67_untouched (fs : List LangBytes) (T : Table Bytes) (name : PyStr) (h : ∀ f ∈ fs, moduleFile f.name = name → LeftOutBytes f) :
    Table.get? (writeAllBytes fs T).1 name = Table.get? T name := runBytes_other fs T name h

/-- **C67** The order in which the directory is listed does not matter. -/
theorem c67_order (fs fs' : List LangBytes) (hu : ∀ f ∈ fs, Usual f) (hp : fs.Perm fs') (T : Table Bytes) (hd : DistinctTargetsBytes fs)
    (hs : (writeAllBytes fs T).2 = none) :
    (writeAllBytes fs' T).2 = none ∧ ∀ name, Table.get? (writeAllBytes fs' T).1 name = Table.get? (writeAllBytes fs T).1 name := by
  have hok := (runBytes_success fs hu T).mp hs
  have hu' : ∀ f ∈ fs', Usual f := fun f hf => hu f (hp.mem_iff.mpr hf)
  have hs' : (writeAllBytes fs' T).2 = none := (runBytes_success fs' hu' T).mpr (fun f hf => hok f (hp.mem_iff.mpr hf))
  refine ⟨hs', fun name => ?_⟩
  have hd' : DistinctTargetsBytes fs' := (hp.map _).nodup_iff.mp hd
  rcases runBytes_targets hu hs name with h | ⟨f, hf, hn, b, hb, h⟩
  · rcases runBytes_targets hu' hs' name with h' | ⟨f, hf, hn, b, hb, h'⟩
    · rw [h, h']
    · have := (c67_run fs hu T hd hs name).1 f (hp.mem_iff.mpr hf) hn b hb
      rw [this, h']
  · have := (c67_run fs' hu' T hd' hs' name).1 f (hp.mem_iff.mp hf) hn b hb
    rw [this, h]

/-- **C67** After a second run with the same files, the targets are as after the first. -/
theorem c67_again (fs : List LangBytes) (hu : ∀ f ∈ fs, Usual f) (T : Table Bytes) (hd : DistinctTargetsBytes fs) (hs : (writeAllBytes fs T).2 = none) :
    (writeAllBytes fs (writeAllBytes fs T).1).2 = none ∧
    ∀ name, Table.get? (writeAllBytes fs (writeAllBytes fs T).1).1 name = Table.get? (writeAllBytes fs T).1 name := by
  have hs2 : (writeAllBytes fs (writeAllBytes fs T).1).2 = none := (runBytes_success _ hu _).mpr ((runBytes_success _ hu _).mp hs)
  refine ⟨hs2, fun name => ?_⟩
  rcases runBytes_targets hu hs2 name with h | ⟨f, hf, hn, b, hb, h⟩
  · exact h
  · rw [(c67_run fs hu T hd hs name).1 f hf hn b hb, h]

/-- **C67** If a run ends with an exception, it has come to the first source file that fails: the targets are those of a run over the
files before it, but the target of the failing file is empty if its module has no UTF-8 form. -/
theorem c67_exception (fs : List LangBytes) (hu : ∀ f ∈ fs, Usual f) (T : Table Bytes) (e : FileErr) (h : (writeAllBytes fs T).2 = some e) :
    ∃ before f after, fs = before ++ f :: after ∧ (∀ g ∈ before, ¬ FailsBytes g) ∧ FailsBytes f ∧
      ((writeAllBytes fs T).1 = (writeAllBytes before T).1 ∨
       (e = .encode ∧ (writeAllBytes fs T).1 = Table.set (writeAllBytes before T).1 (moduleFile f.name) [])) := by
  obtain ⟨a, f, b, h1, h2, h3, h4, h5⟩ := runBytes_error hu h
  refine ⟨a, f, b, h1, h2, h3, ?_⟩
  rcases hw : writeOneBytes f (writeAllBytes a T).1 with ⟨T', o⟩
  rw [hw] at h5
  simp only at h5
  subst h5
  rw [h4, hw]
  rcases c66_exception f (hu f (by rw [h1]; simp)) _ T' e hw with ⟨h, _⟩ | ⟨h, h', _⟩
  · exact .inl h
  · exact .inr ⟨h, h'⟩

/-- **C67** If the run is killed at any moment, all targets but at most one are as before or complete; the one is a beginning of its
module (possibly empty). -/
theorem c67_killed (fs : List LangBytes) (hu : ∀ f ∈ fs, Usual f) (T S : Table Bytes) (h : VisibleBytes fs T S) :
    ∃ broken : Option PyStr, ∀ name,
      (Table.get? S name = Table.get? T name ∨ ∃ f ∈ fs, moduleFile f.name = name ∧ ∃ b, ModuleBytes f b ∧ Table.get? S name = some b) ∨
      (broken = some name ∧ ∃ f ∈ fs, moduleFile f.name = name ∧ ∃ part, Table.get? S name = some part ∧
        (part = [] ∨ ∃ b, ModuleBytes f b ∧ part <+: b)) :=
  visibleBytes_targets hu h

set_option maxRecDepth 100000 in
/-- A run over three files, the first of which is left out -/
example : (∀ f ∈ [⟨u!"root.json", [], none⟩, small, { small with name := u!"yy.json" }], Usual f) ∧
    (writeAllBytes [⟨u!"root.json", [], none⟩, small, { small with name := u!"yy.json" }] [(u!"zz.py", [1])]).2 = none ∧
    DistinctTargetsBytes [⟨u!"root.json", [], none⟩, small, { small with name := u!"yy.json" }] ∧
    ((writeAllBytes [⟨u!"root.json", [], none⟩, small, { small with name := u!"yy.json" }] [(u!"zz.py", [1])]).1.map (fun e => e.1)) =
      [u!"zz.py", u!"xx.py", u!"yy.py"] := by
  refine ⟨?_, ?_⟩
  · intro f hf
    have h : [⟨u!"root.json", [], none⟩, small, { small with name := u!"yy.json" }].all usualCheck = true := by decide +kernel
    exact usual_of_check (List.all_eq_true.mp h f hf)
  · unfold DistinctTargetsBytes
    decide +kernel

set_option maxRecDepth 100000 in
/-- A run that ends with an exception at the second file -/
example : (writeAllBytes [small, ⟨u!"yy.json", [], none⟩, { small with name := u!"zz.json" }] []).2 = some .value ∧
    ((writeAllBytes [small, ⟨u!"yy.json", [], none⟩, { small with name := u!"zz.json" }] []).1.map (fun e => e.1)) = [u!"xx.py"] := by
  decide +kernel

end NumberParser.Props
