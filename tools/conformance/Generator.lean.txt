import Verif.Model.Files
open NumberParser NumberParser.Gen
def toB (b : ByteArray) : List Nat := b.toList.map UInt8.toNat
def main : IO Unit := do
  let root := "/repo/number_parser_data/"
  let files := (← System.FilePath.readDir (root ++ "raw_cldr_translation_data")).map (·.fileName)
  for f in files.qsort (· < ·) do
    let src ← IO.FS.readBinFile (root ++ "raw_cldr_translation_data/" ++ f)
    let sp := root ++ "supplementary_translation_data/" ++ f
    let supp ← if ← System.FilePath.pathExists sp then pure (some (toB (← IO.FS.readBinFile sp))) else pure none
    let tgt := "/repo/number_parser/data/" ++ (f.splitOn ".").head! ++ ".py"
    let old ← if ← System.FilePath.pathExists tgt then pure (some (toB (← IO.FS.readBinFile tgt))) else pure none
    match newTextBytes ⟨f.toList.map Char.toNat, toB src, supp⟩ with
    | .error e => IO.println s!"{f} error {repr e} target {old.isSome}"
    | .ok none => IO.println s!"{f} skipped, target {old.isSome}"
    | .ok (some t) =>
      let b := utf8Encode t
      if b == old then IO.print "." else
        IO.println s!"{f} differs: {(b.getD []).length} vs {(old.getD []).length}"
        IO.FS.writeBinFile ("/tmp/gen_" ++ f ++ ".py") (ByteArray.mk ((b.getD []).map (fun n => n.toUInt8)).toArray)
