import Verif.Spec.Package
import Verif.Spec.VocabularyOrdinal
import Verif.Spec.Fraction

/-!
# Specification: changing single words of a data module
-/

namespace NumberParser.Spec
open NumberParser

/-- The modules do not differ about the word `w`: each table gives it the same value, or has it in neither; and it is a conjunction in
both or in none. -/
structure SameWord (i j : Info) (w : PyStr) : Prop where
  tables : ∀ k v, LastEntry (tableOf i k) w v ↔ LastEntry (tableOf j k) w v
  conjunction : w ∈ i.skipTokens ↔ w ∈ j.skipTokens

/-- `w` is `g`, or `g` with "y" for "ieth" or without "th" at the end (or before a final line break). -/
def Variant (g w : PyStr) : Prop :=
  w = g ∨ ∃ stem n, (n = [] ∨ n = [10]) ∧ ((g = stem ++ u!"ieth" ++ n ∧ w = stem ++ u!"y" ++ n) ∨ (g = stem ++ u!"th" ++ n ∧ w = stem ++ n))

/-- `w` is a word of the text (its comparison form). -/
def WordIn (l s w : PyStr) : Prop := ∃ ts t, Tokens l s ts ∧ t ∈ ts ∧ w = form t

/-- `w` is a word of the text, or a cardinal a word of the text could be the ordinal of. -/
def CardinalIn (l s w : PyStr) : Prop := WordIn l s w ∨ ∃ f, WordIn l s f ∧ Variant (irregular f) w

/-- `u` is the text `s` in comparison form, each token replaced by a cardinal it could be the ordinal of or only with its irregular
ordinals replaced, with spaces between all tokens. -/
def Rewritten (l s u : PyStr) : Prop :=
  ∃ ts us : List PyStr, Tokens l s ts ∧ us.length = ts.length ∧ (∀ (n : Nat) (t w : PyStr), ts[n]? = some t → us[n]? = some w → Variant (irregular (form t)) w) ∧
    u = (us.intersperse [32]).flatten

/-- The modules do not differ about the words `K`; and they have the same scale, or none of these words is a scale word with a value
greater than 100 and up to 10000. -/
structure SameAbout (K : PyStr → Prop) (i j : Info) : Prop where
  scale : i.useLongScale = j.useLongScale ∨ ∀ w v, K w → LastEntry i.bigPowersOfTen w v → v ≤ 100 ∨ 10000 < v
  words : ∀ w, K w → SameWord i j w

/-- The modules do not differ about any word that the functions look up when they read the text. -/
structure SameAsRead (l s : PyStr) (i j : Info) : Prop where
  text : SameAbout (CardinalIn l s) i j
  number : SameAbout (WordIn l (withoutApostrophes s)) i j
  ordinal : ∀ u, Rewritten l s u → SameAbout (WordIn l (withoutApostrophes u)) i j
  fraction : ∀ x y, FractionParts s x y → SameAbout (WordIn l (withoutApostrophes x)) i j ∧ SameAbout (WordIn l (withoutApostrophes y)) i j

/-- `j` is `i`, with one more entry for the word `w` in some of the tables. -/
structure AddsWord (i j : Info) (w : PyStr) : Prop where
  tables : ∀ k, tableOf j k = tableOf i k ∨ ∃ e, stripAccents e.1 = w ∧ tableOf j k = tableOf i k ++ [e]
  skipTokens : j.skipTokens = i.skipTokens
  scale : j.useLongScale = i.useLongScale

/-- `j` has the tables and the conjunctions of `i` in another order, and no table lists a word twice. -/
structure Reordered (i j : Info) : Prop where
  tables : ∀ k, (tableOf i k).Perm (tableOf j k)
  once : ∀ k, ((tableOf i k).map (fun e => stripAccents e.1)).Nodup
  skipTokens : ∀ w, w ∈ i.skipTokens ↔ w ∈ j.skipTokens
  scale : j.useLongScale = i.useLongScale

end NumberParser.Spec
