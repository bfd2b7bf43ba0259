import Verif.Model.Files

/-!
# Model of the generator on other platforms

`open` is called without `encoding` in /repo/number_parser_scripts/write_complete_language_data.py (lines 147, 164 and 187), so that the
encoding of the files is that of the locale, and `os.linesep` ends the lines of the target.  Verif/Model/Files.lean has UTF-8 and `\n` built
in; here they are a parameter.

Errors are strict, the default of `open`; a file is decoded, and the text encoded, as a whole.
-/

namespace NumberParser.Gen

open NumberParser

/-- What `open` without `encoding` does: `locale.getencoding()` and `os.linesep` -/
structure Platform where
  decode : Bytes → Option PyStr
  encode : PyStr → Option Bytes
  lineEnd : PyStr

/-- A POSIX system with a UTF-8 locale, or Python's UTF-8 mode -/
def Platform.posix : Platform := ⟨utf8Decode, utf8Encode, [10]⟩

/-- Windows in Python's UTF-8 mode -/
def Platform.windowsUtf8 : Platform := ⟨utf8Decode, utf8Encode, [13, 10]⟩

/-- The byte of a character in an encoding with one byte per character (`table b`: the character of byte `b`) -/
def byteOf (table : Nat → Option Nat) (c : Nat) : Option Nat := (List.range 256).find? (fun b => table b == some c)

/-- An encoding with one byte per character -/
def Platform.singleByte (table : Nat → Option Nat) (lineEnd : PyStr) : Platform :=
  ⟨fun bytes => bytes.mapM table, fun s => s.mapM (byteOf table), lineEnd⟩

/-- The encoding `ascii` -/
def asciiTable (b : Nat) : Option Nat := if b < 128 then some b else none

/-- The encoding `latin-1` -/
def latin1Table (b : Nat) : Option Nat := if b < 256 then some b else none

/-- The characters of the bytes 0x80 to 0x9f in the encoding `cp1252` -/
def cp1252Upper : List (Option Nat) :=
  [some 0x20ac, none, some 0x201a, some 0x0192, some 0x201e, some 0x2026, some 0x2020, some 0x2021,
   some 0x02c6, some 0x2030, some 0x0160, some 0x2039, some 0x0152, none, some 0x017d, none,
   none, some 0x2018, some 0x2019, some 0x201c, some 0x201d, some 0x2022, some 0x2013, some 0x2014,
   some 0x02dc, some 0x2122, some 0x0161, some 0x203a, some 0x0153, none, some 0x017e, some 0x0178]

/-- The encoding `cp1252` -/
def cp1252Table (b : Nat) : Option Nat :=
  if b < 128 then some b else if b < 160 then (cp1252Upper[b - 128]?).join else if b < 256 then some b else none

/-- A POSIX system with an ASCII locale -/
def Platform.ascii : Platform := .singleByte asciiTable [10]

/-- Windows in western Europe -/
def Platform.windows : Platform := .singleByte cp1252Table [13, 10]

/-- A POSIX system with a Latin-1 locale -/
def Platform.latin1 : Platform := .singleByte latin1Table [10]

/-- Text mode: `\n` is written as `os.linesep`. -/
def lineEnds (lineEnd s : PyStr) : PyStr := s.flatMap (fun c => if c = 10 then lineEnd else [c])

/-- `json.load(open(…))`, lines 147-148, 164-165 -/
def readJsonOn (p : Platform) (bytes : Bytes) : FRes Json :=
  match p.decode bytes with
  | none => throw .value
  | some s =>
    match loads (newlines s) with
    | none => throw .value
    | some v => return v

/-- lines 138-186: the text for one language; `none`: the file is skipped -/
def newTextOn (p : Platform) (f : LangBytes) : FRes (Option PyStr) :=
  if SKIPPED_FILES.elem f.name then return none
  else do
    let data ← readJsonOn p f.source
    match ← requisiteData data with
    | none => return none
    | some requisite =>
      let d ← extractJson requisite
      match f.supplementary with
      | none => throw .noFile
      | some supp =>
        let data ← readJsonOn p supp
        let text ← mergeText d data
        return some text

/-- lines 138-188: the body of the loop -/
def writeOneOn (p : Platform) (f : LangBytes) (targets : Table Bytes) : Table Bytes × Option FileErr :=
  match newTextOn p f with
  | .error e => (targets, some e)
  | .ok none => (targets, none)
  | .ok (some text) =>
    match p.encode (lineEnds p.lineEnd text) with
    | some bytes => (Table.set targets (targetName f.name) bytes, none)
    | none => (Table.set targets (targetName f.name) [], some .encode)

/-- `write_complete_data`, lines 132-188 -/
def writeAllOn (p : Platform) : List LangBytes → Table Bytes → Table Bytes × Option FileErr
  | [], targets => (targets, none)
  | f :: fs, targets =>
    match writeOneOn p f targets with
    | (targets', none) => writeAllOn p fs targets'
    | (targets', some e) => (targets', some e)

/-- What `import` makes of the bytes of a module: source files are UTF-8 on every platform, with universal newlines. -/
def importBytes (bytes : Bytes) : Option (Table Val) :=
  match utf8Decode bytes with
  | none => none
  | some s => importText (newlines s)

end NumberParser.Gen
