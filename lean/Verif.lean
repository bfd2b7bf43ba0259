import Verif.Model.Arguments
import Verif.Model.Bytes
import Verif.Model.Concurrent
import Verif.Model.Data
import Verif.Model.DataText
import Verif.Model.Emit
import Verif.Model.FileBytes
import Verif.Model.Files
import Verif.Model.Generator
import Verif.Model.Interpreter
import Verif.Model.Json
import Verif.Model.Locale
import Verif.Model.Messages
import Verif.Model.Package
import Verif.Model.Parser
import Verif.Model.Pipeline
import Verif.Model.Py
import Verif.Model.RuleData
import Verif.Model.Session
import Verif.Model.SourcesA
import Verif.Model.SourcesB
import Verif.Model.SourcesC
import Verif.Model.SourcesD
import Verif.Model.SourcesE
import Verif.Model.SourcesF
import Verif.Model.Steps
import Verif.Model.System
import Verif.Model.Tables
import Verif.Model.Unicode
import Verif.Model.UnicodeData
import Verif.Spec.Apart
import Verif.Spec.Arguments
import Verif.Spec.Closed
import Verif.Spec.Concurrent
import Verif.Spec.Declension
import Verif.Spec.Detect
import Verif.Spec.Digits
import Verif.Spec.Double
import Verif.Spec.Emit
import Verif.Spec.Files
import Verif.Spec.Fraction
import Verif.Spec.Generator
import Verif.Spec.Hundreds
import Verif.Spec.Interpreter
import Verif.Spec.Json
import Verif.Spec.Locale
import Verif.Spec.Messages
import Verif.Spec.Module
import Verif.Spec.Number
import Verif.Spec.Numerals
import Verif.Spec.Ordinals
import Verif.Spec.Package
import Verif.Spec.Reading
import Verif.Spec.Recognised
import Verif.Spec.Sentence
import Verif.Spec.Size
import Verif.Spec.Steps
import Verif.Spec.System
import Verif.Spec.Text
import Verif.Spec.Utf8
import Verif.Spec.Vocabulary
import Verif.Spec.VocabularyAgreement
import Verif.Spec.VocabularyApart
import Verif.Spec.VocabularyDetectNames
import Verif.Spec.VocabularyGrowth
import Verif.Spec.VocabularyNamesInText
import Verif.Spec.VocabularyNumeral
import Verif.Spec.VocabularyOrdinal
import Verif.Spec.VocabularyOrdinalNames
import Verif.Spec.VocabularyOutput
import Verif.Spec.VocabularyPieces
import Verif.Spec.VocabularyPunctuation
import Verif.Spec.VocabularyScale
import Verif.Spec.VocabularyText
import Verif.Spec.VocabularyWords
import Verif.Spec.Words
import Verif.Proofs.Accents
import Verif.Proofs.Apart
import Verif.Proofs.ApartJoin
import Verif.Proofs.ApartWords
import Verif.Proofs.Arguments
import Verif.Proofs.Auto
import Verif.Proofs.AutoText
import Verif.Proofs.Basic
import Verif.Proofs.Bound
import Verif.Proofs.Case
import Verif.Proofs.Closed
import Verif.Proofs.Concat
import Verif.Proofs.Concurrent
import Verif.Proofs.Convert
import Verif.Proofs.CountZero
import Verif.Proofs.Declension
import Verif.Proofs.Detect
import Verif.Proofs.Dict
import Verif.Proofs.Digits
import Verif.Proofs.Directory
import Verif.Proofs.Double
import Verif.Proofs.Emit
import Verif.Proofs.EmitRead
import Verif.Proofs.Extract
import Verif.Proofs.FileEn
import Verif.Proofs.FileEs
import Verif.Proofs.FileHi
import Verif.Proofs.FileRu
import Verif.Proofs.FileRuns
import Verif.Proofs.FileUk
import Verif.Proofs.Files
import Verif.Proofs.Forms
import Verif.Proofs.Fraction
import Verif.Proofs.GenFail
import Verif.Proofs.Generator
import Verif.Proofs.Growth
import Verif.Proofs.Hundreds
import Verif.Proofs.Interpreter
import Verif.Proofs.InterpreterLimit
import Verif.Proofs.Json
import Verif.Proofs.JsonBreaks
import Verif.Proofs.JsonNumber
import Verif.Proofs.JsonValue
import Verif.Proofs.Kind
import Verif.Proofs.Locale
import Verif.Proofs.Messages
import Verif.Proofs.NumberText
import Verif.Proofs.NumberWords
import Verif.Proofs.Numeric
import Verif.Proofs.Occurs
import Verif.Proofs.OpenRun
import Verif.Proofs.Ordinal
import Verif.Proofs.OrdinalMeaning
import Verif.Proofs.OrdinalSentence
import Verif.Proofs.OrdinalText
import Verif.Proofs.Ordinals
import Verif.Proofs.Output
import Verif.Proofs.Package
import Verif.Proofs.PackageDetect
import Verif.Proofs.PackageFraction
import Verif.Proofs.PackageInvariance
import Verif.Proofs.ParsePure
import Verif.Proofs.Phrase
import Verif.Proofs.Pieces
import Verif.Proofs.Pipeline
import Verif.Proofs.Punctuation
import Verif.Proofs.Reading
import Verif.Proofs.Render
import Verif.Proofs.RoundTrip
import Verif.Proofs.RuleForms
import Verif.Proofs.RuleMeaning
import Verif.Proofs.Run
import Verif.Proofs.Sentence
import Verif.Proofs.SentenceParse
import Verif.Proofs.Seq
import Verif.Proofs.Session
import Verif.Proofs.Shuffle
import Verif.Proofs.Size
import Verif.Proofs.Solid
import Verif.Proofs.SourceA
import Verif.Proofs.SourceB
import Verif.Proofs.SourceC
import Verif.Proofs.SourceD
import Verif.Proofs.SourceE
import Verif.Proofs.SourceF
import Verif.Proofs.Spacing
import Verif.Proofs.SpacingConvert
import Verif.Proofs.Stages
import Verif.Proofs.Steps
import Verif.Proofs.SubWord
import Verif.Proofs.System
import Verif.Proofs.Tokens
import Verif.Proofs.Transport
import Verif.Proofs.Uni
import Verif.Proofs.Units
import Verif.Proofs.Utf8
import Verif.Proofs.Vocabulary
import Verif.Proofs.VocabularyAgreement
import Verif.Proofs.VocabularyApart
import Verif.Proofs.VocabularyGrowth
import Verif.Proofs.VocabularyModules
import Verif.Proofs.VocabularyNames
import Verif.Proofs.VocabularyNumeral
import Verif.Proofs.VocabularyOrdinal
import Verif.Proofs.VocabularyOutput
import Verif.Proofs.VocabularyPieces
import Verif.Proofs.VocabularyPunctuation
import Verif.Proofs.VocabularyText
import Verif.Proofs.VocabularyWords
import Verif.Proofs.WF
import Verif.Proofs.Words
import Verif.Props.Agreement
import Verif.Props.Apart
import Verif.Props.Api
import Verif.Props.Arguments
import Verif.Props.Auto
import Verif.Props.AutoText
import Verif.Props.Concurrent
import Verif.Props.Conjunctions
import Verif.Props.Conversion
import Verif.Props.Declension
import Verif.Props.Detection
import Verif.Props.Emit
import Verif.Props.Errors
import Verif.Props.FileData
import Verif.Props.Files
import Verif.Props.FractionText
import Verif.Props.Fractions
import Verif.Props.Generator
import Verif.Props.Hindi
import Verif.Props.Hundreds
import Verif.Props.Interpreter
import Verif.Props.Invariance
import Verif.Props.Locale
import Verif.Props.Meaning
import Verif.Props.Messages
import Verif.Props.Numbers
import Verif.Props.Ordinals
import Verif.Props.Package
import Verif.Props.PackageDetect
import Verif.Props.PackageFraction
import Verif.Props.PackageInvariance
import Verif.Props.Pipeline
import Verif.Props.Punctuation
import Verif.Props.RoundTrip
import Verif.Props.Sentences
import Verif.Props.Session
import Verif.Props.Size
import Verif.Props.Sources
import Verif.Props.Steps
import Verif.Props.System
import Verif.Props.Tables
import Verif.Props.Text
import Verif.Props.Vocabulary
import Verif.Props.VocabularyAgreement
import Verif.Props.VocabularyApart
import Verif.Props.VocabularyDetectNames
import Verif.Props.VocabularyGrowth
import Verif.Props.VocabularyNamesInText
import Verif.Props.VocabularyNumeral
import Verif.Props.VocabularyOrdinal
import Verif.Props.VocabularyOrdinalNames
import Verif.Props.VocabularyOutput
import Verif.Props.VocabularyPieces
import Verif.Props.VocabularyPunctuation
import Verif.Props.VocabularyScale
import Verif.Props.VocabularyText
import Verif.Props.VocabularyWords
