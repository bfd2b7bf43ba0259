import Verif.Proofs.Locale
import Verif.Props.Files
import Verif.Model.FileBytes

/-!
# C89: the generator with other encodings and line ends

The script opens its files without `encoding`.  C64 to C68 are about UTF-8 and `\n`; here is what other locales and Windows change.
-/

namespace NumberParser.Props
open NumberParser Gen Spec

/-- On a POSIX system with UTF-8 the run is that of C64 to C68. -/
theorem c89_posix (fs : List LangBytes) (T : Table Bytes) : writeAllOn .posix fs T = writeAllBytes fs T := by
  induction fs generalizing T with
  | nil => rfl
  | cons f fs ih =>
    rw [writeAllOn, writeAllBytes, writeOneOn_posix]
    rcases writeOneBytes f T with ⟨T', o⟩
    cases o with
    | none => exact ih T'
    | some e => rfl

/-- **C89**: with any encoding and any line ends, the generator does for a language what it does in UTF-8 for the files converted to UTF-8: the
module that these have is written in the encoding and with the line ends of the platform; if that is impossible the target is left empty, with a
`UnicodeEncodeError`; if there is no module the target is not touched. -/
theorem c89_converted (p : Platform) (f g : LangBytes) (h : ConvertedFiles p f g) (T : Table Bytes) :
    (LeftOutBytes g → writeOneOn p f T = (T, none)) ∧
    (∀ text bytes, ModuleOf g text → InEncoding p text bytes → writeOneOn p f T = (Table.set T (moduleFile f.name) bytes, none)) ∧
    (∀ text, ModuleOf g text → (¬ ∃ bytes, InEncoding p text bytes) → writeOneOn p f T = (Table.set T (moduleFile f.name) [], some .encode)) ∧
    (Usual g → ¬ LeftOutBytes g → (¬ ∃ text, ModuleOf g text) → ∃ e, newTextBytes g = .error e ∧ writeOneOn p f T = (T, some e)) := by
  unfold writeOneOn
  rw [h.newText]
  refine ⟨?_, ?_, ?_, ?_⟩
  · intro hl
    rw [(newTextBytes_none g).mpr hl]
  · intro text bytes hm he
    rw [newTextBytes_of g text hm]
    have e : p.encode (lineEnds p.lineEnd text) = some bytes := he
    simp only [e]; rfl
  · intro text hm he
    rw [newTextBytes_of g text hm]
    have e : p.encode (lineEnds p.lineEnd text) = none := by
      cases hx : p.encode (lineEnds p.lineEnd text) with
      | none => rfl
      | some b => exact absurd ⟨b, hx⟩ he
    simp only [e]; rfl
  · intro hu hl hm
    cases hx : newTextBytes g with
    | error e => exact ⟨e, rfl, rfl⟩
    | ok o =>
      cases o with
      | none => exact absurd ((newTextBytes_none g).mp hx) hl
      | some text => exact absurd ⟨text, (newTextBytes_some g hu text).mp hx⟩ hm

/-- **C89**: a source file with bytes that are not in the encoding ends the run with a `UnicodeDecodeError` (a `ValueError`), before the target is touched;
so does such a supplementary file, if the source file was read without exception. -/
theorem c89_undecodable (p : Platform) (f : LangBytes) (hn : ¬ SpecialName f.name) (T : Table Bytes) :
    (p.decode f.source = none → writeOneOn p f T = (T, some .value)) ∧
    (∀ b, f.supplementary = some b → p.decode b = none → newTextOn p { f with supplementary := none } = .error .noFile →
      writeOneOn p f T = (T, some .value)) := by
  have hs : ¬ (SKIPPED_FILES.elem f.name = true) := fun h => hn ((skipped_special _).mp h)
  constructor
  · intro h
    have : newTextOn p f = .error .value := by
      unfold newTextOn readJsonOn
      rw [if_neg hs, h]; rfl
    unfold writeOneOn; rw [this]
  · intro b hb hd h
    have : newTextOn p f = .error .value := by
      unfold newTextOn at h ⊢
      rw [if_neg hs] at h ⊢
      have hr : readJsonOn p b = .error .value := by unfold readJsonOn; rw [hd]; rfl
      simp only [hb, hr]
      simp only [bind, Except.bind] at h ⊢
      cases h1 : readJsonOn p f.source with
      | error e => rw [h1] at h; injection h with h; subst h; exact absurd h1 (readJsonOn_noFile p f.source)
      | ok v =>
        rw [h1] at h
        simp only at h ⊢
        cases h2 : requisiteData v with
        | error e => rw [h2] at h; injection h with h; subst h; exact absurd h2 (requisite_noFile v)
        | ok r =>
          rw [h2] at h
          cases r with
          | none => cases h
          | some r =>
            simp only at h ⊢
            cases h3 : extractJson r with
            | error e => rw [h3] at h; injection h with h; subst h; exact absurd h3 (extract_noFile r)
            | ok d => rfl
    unfold writeOneOn; rw [this]

/-- **C89**: files of ASCII bytes, and a module of ASCII characters, do not depend on the encoding, if it contains ASCII. -/
theorem c89_ascii_files (p : Platform) (hp : AsciiCompatible p) (hl : p.lineEnd = [10]) (f : LangBytes) (hf : AsciiFiles f) (hu : Usual f)
    (ht : ∀ text, ModuleOf f text → Ascii text) (T : Table Bytes) : writeOneOn p f T = writeOneBytes f T := by
  have h := (asciiFiles_converted hp hf).newText
  unfold writeOneOn writeOneBytes
  rw [h]
  cases hx : newTextBytes f with
  | error e => rfl
  | ok o =>
    cases o with
    | none => rfl
    | some text =>
      have ha := ht text ((newTextBytes_some f hu text).mp hx)
      simp only [hl, lineEnds_lf, hp.encode text ha, (utf8Encode_iff _ _).mpr (utf8_ascii ha)]

/-- `ascii`, `latin-1` and `cp1252` contain ASCII. -/
theorem c89_compatible : AsciiCompatible .ascii ∧ AsciiCompatible .latin1 ∧ AsciiCompatible .windows ∧ AsciiCompatible .posix := by
  refine ⟨singleByte_compatible (fun b h => if_pos h) _, singleByte_compatible (fun b h => if_pos (by omega)) _,
    singleByte_compatible (fun b h => if_pos h) _, ⟨fun b h => (utf8Decode_iff _ _).mpr (utf8_ascii h), fun s h => (utf8Encode_iff _ _).mpr (utf8_ascii h)⟩⟩

/-- **C89**: in an ASCII locale, a run without exception leaves what it leaves in UTF-8. -/
theorem c89_ascii_run (fs : List LangBytes) (T T' : Table Bytes) (h : writeAllOn .ascii fs T = (T', none)) : writeAllBytes fs T = (T', none) :=
  writeAllOn_ascii h

/-- **C89**: it ends with a `ValueError` at the first source file with a byte outside ASCII. -/
theorem c89_ascii_error (f : LangBytes) (hn : ¬ SpecialName f.name) (c : Nat) (hc : c ∈ f.source) (h : 128 ≤ c) (fs : List LangBytes) (T : Table Bytes) :
    writeAllOn .ascii (f :: fs) T = (T, some .value) := by
  have hd : Platform.ascii.decode f.source = none :=
    mapM_none ⟨c, hc, by unfold asciiTable; rw [if_neg (by omega)]⟩
  rw [writeAllOn, (c89_undecodable .ascii f hn T).1 hd]

/-- **C89**: the line ends of Windows do not change what a module means: in UTF-8 mode a module is written exactly if it is on POSIX, and importing it
gives the same. -/
theorem c89_line_ends (f : LangBytes) (text : PyStr) (h : ModuleOf f text) (bytes : Bytes) (hb : Utf8 text bytes) (T : Table Bytes) :
    ∃ bytes', writeOneOn .windowsUtf8 f T = (Table.set T (moduleFile f.name) bytes', none) ∧
      importBytes bytes' = importText text ∧ importBytes bytes = importText text := by
  obtain ⟨_, _, _, out, _, _, rfl⟩ := id h
  obtain ⟨b', hb'⟩ := utf8_crlf hb
  refine ⟨b', ?_, ?_, ?_⟩
  · have h1 : newTextOn .windowsUtf8 f = newTextBytes f := rfl
    unfold writeOneOn
    rw [h1, newTextBytes_of f _ h]
    have e := (utf8Encode_iff _ _).mpr hb'
    simp only [Platform.windowsUtf8, e]; rfl
  · unfold importBytes
    rw [(utf8Decode_iff _ _).mpr hb']
    simp only [newlines_crlf (emit_cr out)]
  · unfold importBytes
    rw [(utf8Decode_iff _ _).mpr hb]
    have : newlines (emit out) = emit out := newlinesGo_noCr (emit_cr out)
    simp only [this]

set_option maxRecDepth 1000000 in
/-- That the generator can be run everywhere is refuted: on Windows with the western code page the Russian, Ukrainian and Hindi rule files of the repository
cannot be read, in an ASCII locale none of the five languages can. -/
theorem c89_shipped : Platform.windows.decode FileBytes.ruSource = none ∧ Platform.windows.decode FileBytes.ukSource = none ∧
    Platform.windows.decode FileBytes.hiSource = none ∧
    [FileBytes.enSource, FileBytes.esSource, FileBytes.hiSource, FileBytes.ruSource, FileBytes.ukSource].all
      (fun b => (Platform.ascii.decode b).isNone) = true := by decide +kernel

/-- A small language with two words outside ASCII -/
def accented (w : List Nat) : LangBytes := ⟨u!"xx.json",
  unpackAll [b!"{\"rbnf\": {\"rbnf\": {\"SpelloutRules\": {\"%spellout-cardinal\": {\"2\": \""] ++ w ++ unpackAll [b!";\"}}}}}"],
  some (unpackAll [b!"{\"UNIT_NUMBERS\": {}, \"DIRECT_NUMBERS\": {}, \"TENS\": {}, \"HUNDREDS\": {}, \"BIG_POWERS_OF_TEN\": {}, \"SKIP_TOKENS\": []}"])⟩

set_option maxRecDepth 100000 in
/-- Where UTF-8 files are read in another encoding without exception the words are wrong ones, but may come out right again: in a Latin-1 locale the word "é" is read as "Ã©",
and written as the bytes it had; the word "í", whose second byte is a soft hyphen in Latin-1, becomes a module that cannot be imported. -/
theorem c89_wrong_words :
    newTextOn .latin1 (accented [0xc3, 0xa9]) = .ok (some (emit ⟨⟨[(u!"Ã©", 2)], [], [], [], []⟩, [], none⟩)) ∧
    writeOneOn .latin1 (accented [0xc3, 0xa9]) [] = writeOneBytes (accented [0xc3, 0xa9]) [] ∧
    newTextOn .latin1 (accented [0xc3, 0xad]) = .ok (some (emit ⟨⟨[(u!"Ã", 2)], [], [], [], []⟩, [], none⟩)) ∧
    ((Table.get? (writeOneOn .latin1 (accented [0xc3, 0xad]) []).1 u!"xx.py").map (fun b => (importBytes b).isNone)) = some true ∧
    ((Table.get? (writeOneBytes (accented [0xc3, 0xad]) []).1 u!"xx.py").map (fun b => (importBytes b).isNone)) = some false := by decide +kernel

set_option maxRecDepth 100000 in
/-- A Latin-1 file whose conversion to UTF-8 is another file: both give the same module text; the conditions of `c89_converted` are met. -/
theorem c89_example : ConvertedFiles .latin1 (accented [0xe9]) (accented [0xc3, 0xa9]) ∧ newTextOn .latin1 (accented [0xe9]) = newTextBytes (accented [0xc3, 0xa9]) ∧
    newTextOn .latin1 (accented [0xe9]) = .ok (some (emit ⟨⟨[(u!"é", 2)], [], [], [], []⟩, [], none⟩)) ∧
    writeOneOn .ascii (accented [0x61]) [] = writeOneBytes (accented [0x61]) [] ∧
    writeOneOn .windows (accented [0x61]) [] ≠ writeOneBytes (accented [0x61]) [] := by
  have hc : ConvertedFiles .latin1 (accented [0xe9]) (accented [0xc3, 0xa9]) := by
    refine ⟨rfl, ?_, ?_⟩
    · refine ⟨(accented [0xe9]).source, by decide +kernel, ?_⟩
      rw [← utf8Decode_iff]; decide +kernel
    · refine .inr ⟨_, _, (accented []).supplementary.getD [], rfl, rfl, by decide +kernel, ?_⟩
      rw [← utf8Decode_iff]; decide +kernel
  exact ⟨hc, hc.newText, by decide +kernel, by decide +kernel, by decide +kernel⟩

/-- The files of a small language that are ASCII, with a module that is ASCII, as `c89_ascii_files` wants them. -/
example : AsciiFiles (accented [0x61]) ∧ Usual (accented [0x61]) ∧ ∀ text, ModuleOf (accented [0x61]) text → Ascii text := by
  refine ⟨⟨by unfold Ascii; decide +kernel, ?_⟩, usual_of_check (by decide +kernel), ?_⟩
  · intro b hb
    injection hb with hb
    subst hb
    unfold Ascii; decide +kernel
  · intro text h
    have h1 := newTextBytes_of _ _ h
    have h2 : newTextBytes (accented [0x61]) = .ok (some (emit ⟨⟨[(u!"a", 2)], [], [], [], []⟩, [], none⟩)) := by decide +kernel
    rw [h2] at h1
    injection h1 with h1; injection h1 with h1
    subst h1
    unfold Ascii; decide +kernel

end NumberParser.Props
