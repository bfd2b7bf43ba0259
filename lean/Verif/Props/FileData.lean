import Verif.Proofs.FileUk

/-!
# C68: the files of the repository

The bytes of the rule files and supplementary files of the five languages (Verif/Model/FileBytes.lean) give the text of the shipped
data modules (Verif/Model/DataText.lean), and importing this text gives the tables that the parser uses (Verif/Model/Data.lean).
-/

namespace NumberParser.Props

open NumberParser Gen Spec

set_option maxRecDepth 1000000 in
theorem text_scalar : DataText.en.all isScalar = true ∧ DataText.es.all isScalar = true ∧ DataText.hi.all isScalar = true ∧
    DataText.ru.all isScalar = true := by decide +kernel

/-- The generator, run on the files, writes the bytes of a module that is the given text and imports as the given data. -/
def Ships (f : LangBytes) (target text : PyStr) (i : Info) : Prop :=
  ∃ bytes, (∀ T, ∃ T', writeOneBytes f T = (T', none) ∧ Table.get? T' target = some bytes) ∧ Utf8 text bytes ∧
    importText text = some (shipped i).entries

theorem ships_of {f : LangBytes} {text : PyStr} {i : Info} (h : newTextBytes f = .ok (some text)) (hs : text.all isScalar = true)
    (hi : importText text = some (shipped i).entries) (target : PyStr) (ht : targetName f.name = target) : Ships f target text i := by
  have he : utf8Encode text = some (text.flatMap utf8Char) := by unfold utf8Encode; rw [if_pos hs]
  refine ⟨text.flatMap utf8Char, fun T => ⟨Table.set T (targetName f.name) (text.flatMap utf8Char), ?_, ?_⟩, (utf8Encode_iff _ _).mp he, hi⟩
  · unfold writeOneBytes; rw [h]; simp only; rw [he]
  · rw [Table.get?_set, if_pos ht]

/-- **C68** From the bytes of the repository's JSON files to the tables of the parser: English, Spanish, Hindi, Russian. -/
theorem c68_shipped :
    Ships enFiles u!"en.py" DataText.en Data.en ∧ Ships esFiles u!"es.py" DataText.es Data.es ∧
    Ships hiFiles u!"hi.py" DataText.hi Data.hi ∧ Ships ruFiles u!"ru.py" DataText.ru Data.ru :=
  ⟨ships_of text_en text_scalar.1 import_en _ (by decide), ships_of text_es text_scalar.2.1 import_es _ (by decide),
   ships_of text_hi text_scalar.2.2.1 import_hi _ (by decide), ships_of text_ru text_scalar.2.2.2 import_ru _ (by decide)⟩

set_option maxRecDepth 1000000 in
/-- **C68** is false for Ukrainian: running the generator on the repository's files replaces the shipped module by one without five
words. -/
theorem c68_ukrainian_drift : newTextBytes ukFiles ≠ .ok (some DataText.uk) ∧
    newTextBytes ukFiles = .ok (some (emit (shipped ukGenerated))) ∧ ukHandMade.length = 5 ∧
    ukHandMade.all (fun w => Dict.mem Data.uk.hundreds w && !Dict.mem ukGenerated.hundreds w) = true := by
  refine ⟨?_, text_uk, by decide, by decide +kernel⟩
  rw [text_uk]
  intro h
  injection h with h
  injection h with h
  revert h
  decide +kernel

end NumberParser.Props
