import Verif.Proofs.FileHi
import Verif.Props.Agreement
import Verif.Props.Apart
import Verif.Props.Api
import Verif.Props.Auto
import Verif.Props.AutoText
import Verif.Props.Conjunctions
import Verif.Props.Conversion
import Verif.Props.Detection
import Verif.Props.Emit
import Verif.Props.Errors
import Verif.Props.Files
import Verif.Props.FractionText
import Verif.Props.Fractions
import Verif.Props.Generator
import Verif.Props.Hindi
import Verif.Props.Hundreds
import Verif.Props.Invariance
import Verif.Props.Meaning
import Verif.Props.Numbers
import Verif.Props.Ordinals
import Verif.Props.Pipeline
import Verif.Props.Declension
import Verif.Props.Vocabulary
import Verif.Props.VocabularyText
import Verif.Props.PackageInvariance
import Verif.Props.VocabularyPieces
import Verif.Props.VocabularyNumeral
import Verif.Props.VocabularyApart
import Verif.Props.VocabularyPunctuation
import Verif.Props.PackageDetect
import Verif.Props.VocabularyGrowth
import Verif.Props.System
import Verif.Props.Concurrent
import Verif.Props.VocabularyAgreement
import Verif.Props.Steps
import Verif.Props.VocabularyScale
import Verif.Props.VocabularyDetectNames
import Verif.Props.Interpreter
import Verif.Props.Locale
import Verif.Props.Arguments
import Verif.Props.Messages
import Verif.Props.Punctuation
import Verif.Props.RoundTrip
import Verif.Props.Sentences
import Verif.Props.Session
import Verif.Props.Size
import Verif.Props.Sources
import Verif.Props.Tables
import Verif.Props.Text

/-! The generator, run on the Russian files.  One file per language: each takes some gigabytes of memory.
This is the largest; it imports the other properties so that it is built after them, alone. -/

namespace NumberParser.Props

open NumberParser Gen Spec

def ruFiles : LangBytes := ⟨u!"ru.json", FileBytes.ruSource, some FileBytes.ruSupplementary⟩

set_option maxRecDepth 1000000 in
theorem source_ru : sourceTables FileBytes.ruSource = liftGen ((extract RuleData.ruRules).map some) := by decide +kernel

set_option maxRecDepth 1000000 in
theorem supp_ru : suppData FileBytes.ruSupplementary = .ok RuleData.ruSupplementary := by decide +kernel

theorem text_ru : newTextBytes ruFiles = .ok (some DataText.ru) := by
  rw [← emit_ru]
  exact text_of_stages (by decide) source_ru supp_ru c50_regenerate.2.2.2

end NumberParser.Props
