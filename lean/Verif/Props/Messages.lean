import Verif.Proofs.Messages
import Verif.Props.Files

/-!
# C91: what the generator says

The specification is in Verif/Spec/Messages.lean: `Says f m`, what is said about a language whose module is written or which is left
out; `keyMessages`, one printed line for each rule whose key is not an integer.  A `Console` is a standard output, with the texts it takes.
-/

namespace NumberParser.Props

open Gen Spec

/-- **C91** If standard output takes the messages about the keys of the source files, the run does to the targets what C66 and C67 say, and
ends as they say. -/
theorem c91_same (c : Console) (fs : List LangBytes) (h : ∀ f ∈ fs, Audible c f) (T : Table Bytes) :
    (sayAll c fs T).2 = writeAllBytes fs T := sayAll_same h T

/-- **C91** A standard output in UTF-8 takes all messages if no key has a lone surrogate. -/
theorem c91_utf8 (f : LangBytes)
    (h : ∀ data members name items key v, JsonFile f.source data → SpelloutRules data (.obj members) → (name, Json.obj items) ∈ members →
      UsedSet name → (key, v) ∈ items → ∃ bytes, Utf8 key bytes) : Audible .utf8 f := by
  intro data members name items key v h1 h2 h3 h4 h5 _
  obtain ⟨bytes, hb⟩ := h data members name items key v h1 h2 h3 h4 h5
  have hk : key.all isScalar = true := by
    have := (utf8Encode_iff key bytes).mpr hb
    unfold utf8Encode at this
    by_cases hx : key.all isScalar = true
    · exact hx
    · rw [if_neg hx] at this; cases this
  show (keyText key).all isScalar = true
  unfold keyText
  rw [List.all_append, List.all_append, hk]
  decide +kernel

/-- **C91** What a run without exception says: nothing about files with the two special names; a log entry for a file without rules; for every
other language a line for each key of the used rules that is not an integer, in their order, and a log entry if there is no scale. -/
theorem c91_messages (c : Console) (fs : List LangBytes) (hu : ∀ f ∈ fs, Usual f) (T : Table Bytes) (h : (sayAll c fs T).2.2 = none) :
    SaysAll fs (sayAll c fs T).1 := sayAll_ok hu h

/-- **C91** `Says` leaves no choice. -/
theorem c91_meaning (f : LangBytes) (m m' : List Message) (h : Says f m) (h' : Says f m') : m = m' := by
  have hold : ∀ {sets sets' : RuleSets} {supp supp' : Supplementary}, Holds f sets supp → Holds f sets' supp' →
      keyMessages (usedRules sets) = keyMessages (usedRules sets') ∧ supp.useLongScale = supp'.useLongScale := by
    rintro sets sets' supp supp' ⟨data, members, b, data', h1, h2, h3, h4, h5, h6⟩ ⟨data1, members1, b1, data1', g1, g2, g3, g4, g5, g6⟩
    have e1 := jsonFile_unique h1 g1
    subst e1
    have e2 := (requisite_some _ _).mpr h2
    rw [(requisite_some _ _).mpr g2] at e2
    injection e2 with e2; injection e2 with e2; injection e2 with e2
    subst e2
    rw [h4] at g4
    injection g4 with g4
    subst g4
    have e3 := jsonFile_unique h5 g5
    subst e3
    refine ⟨?_, ?_⟩
    · have hw : ∀ (t : List (PyStr × Json)) (s s' : RuleSets), RuleSetsOf t s → RuleSetsOf t s' → usedRules s = usedRules s' := by
        intro t s s' ha
        induction ha generalizing s' with
        | nil => intro hb; cases hb; rfl
        | @used name rules t s hn _ ih =>
          intro hb
          generalize hj : Json.obj (rules.map (fun r => (r.1, Json.str r.2))) = j at hb
          cases hb with
          | @used _ rules' _ s' _ hb =>
            injection hj with hj
            have : rules = rules' := by
              clear ih hb
              induction rules generalizing rules' with
              | nil => cases rules' with
                | nil => rfl
                | cons _ _ => cases hj
              | cons r rules ih2 => cases rules' with
                | nil => cases hj
                | cons r' rules' =>
                  rw [List.map_cons, List.map_cons] at hj
                  injection hj with hj1 hj2
                  injection hj1 with hj3 hj4
                  injection hj4 with hj4
                  rw [ih2 hj2, Prod.ext hj3 hj4]
            subst this
            have := ih _ hb
            unfold usedRules at this ⊢
            rw [List.filter_cons_of_pos (by simpa using hn), List.filter_cons_of_pos (by simpa using hn), List.flatMap_cons, List.flatMap_cons, this]
          | unused hn' _ => exact absurd hn hn'
        | @unused name v t s hn _ ih =>
          intro hb
          cases hb with
          | used hn' _ => exact absurd hn' hn
          | unused _ hb =>
            have := ih _ hb
            unfold usedRules at this ⊢
            rw [List.filter_cons_of_neg (by simpa using hn), List.filter_cons_of_neg (by simpa using hn), this]
      rw [hw _ _ _ h3 g3]
    · have a := (longScaleOf_iff data' supp.useLongScale).mpr h6.2.2
      rw [(longScaleOf_iff data' supp'.useLongScale).mpr g6.2.2] at a
      injection a with a
      exact a.symm
  have clash : ∀ {sets : RuleSets} {supp : Supplementary} {data : Json}, Holds f sets supp → JsonFile f.source data → ¬ NoSpelloutRules data := by
    rintro sets supp data ⟨data1, members, _, _, h1, h2, _⟩ g1 g2
    have e1 := jsonFile_unique h1 g1
    subst e1
    have e2 := (requisite_some _ _).mpr h2
    rw [(requisite_none _).mpr g2] at e2
    injection e2 with e2; cases e2
  cases h with
  | special hs => cases h' with
    | special => rfl
    | noRules hn => exact absurd hs hn
    | scaled hn => exact absurd hs hn
    | unscaled hn => exact absurd hs hn
  | noRules hn hj hr => cases h' with
    | special hs => exact absurd hs hn
    | noRules => rfl
    | scaled _ hh => exact absurd hr (clash hh hj)
    | unscaled _ hh => exact absurd hr (clash hh hj)
  | scaled hn hh hl => cases h' with
    | special hs => exact absurd hs hn
    | noRules _ hj hr => exact absurd hr (clash hh hj)
    | scaled _ hh' _ => exact (hold hh hh').1
    | unscaled _ hh' hl' => have := (hold hh hh').2; rw [hl, hl'] at this; cases this
  | unscaled hn hh hl => cases h' with
    | special hs => exact absurd hs hn
    | noRules _ hj hr => exact absurd hr (clash hh hj)
    | scaled _ hh' hl' => have := (hold hh hh').2; rw [hl, hl'] at this; cases this
    | unscaled _ hh' _ => rw [(hold hh hh').1]

/-- **C91** If a run ends with an exception, everything was said about the files before the failing one, and about that one, if its rules can
be read, a beginning of what there is to say. -/
theorem c91_exception (c : Console) (fs : List LangBytes) (hu : ∀ f ∈ fs, Usual f) (T : Table Bytes) (e : FileErr) (h : (sayAll c fs T).2.2 = some e) :
    ∃ before f after ms m, fs = before ++ f :: after ∧ SaysAll before ms ∧ (sayAll c before T).2.2 = none ∧ (sayAll c fs T).1 = ms ++ m ∧
      ∀ data members sets, ¬ SpecialName f.name → JsonFile f.source data → SpelloutRules data (.obj members) → RuleSetsOf members sets →
        m <+: keyMessages (usedRules sets) ++ [noScaleEntry f.name] := by
  obtain ⟨a, f, b, ms, h1, h2, h3, h4, _⟩ := sayAll_error hu h
  refine ⟨a, f, b, ms, _, h1, h2, h3, h4, ?_⟩
  intro data members sets hs g1 g2 g3
  rw [sayOne_messages]
  exact sayText_prefix c hs g1 g2 g3

/-- **C91** A key that is not an integer and whose message standard output refuses ends the run with a `UnicodeEncodeError`; the messages
about the rules before it are printed, and the target of the language is not touched. -/
theorem c91_refused (c : Console) (f : LangBytes) (T : Table Bytes) (hs : ¬ SpecialName f.name) (data : Json) (members : List (PyStr × Json))
    (sets : RuleSets) (h1 : JsonFile f.source data) (h2 : SpelloutRules data (.obj members)) (h3 : RuleSetsOf members sets)
    (before after : List (PyStr × PyStr)) (r : PyStr × PyStr) (hr : usedRules sets = before ++ r :: after)
    (hb : ∀ x ∈ before, ¬ RuleFails x.1 x.2 ∧ (IntegerKey x.1 ∨ c.takes (keyText x.1) = true)) (hk : ¬ IntegerKey r.1)
    (ht : c.takes (keyText r.1) = false) : sayOne c f T = (keyMessages before, T, some .encode) := by
  unfold sayOne
  rw [sayText_refused hs h1 h2 h3 hr hb hk ht]

/-- Files of a small language with two keys that are not integers; `é` is in the second one. -/
def spoken : LangBytes := ⟨u!"xx.json", unpackAll [b!"{\"rbnf\": {\"rbnf\": {\"SpelloutRules\": {\"%spellout-cardinal\": ",
  b!"{\"-x\": \"minus >>;\", \"1\": \"one;\", \"x\\u00e9\": \"point;\"}, \"%other\": {\"y\": \"z\"}}}}}"], some smallSupplementary⟩

/-- The same with a lone surrogate in the key -/
def spokenSurrogate : LangBytes := ⟨u!"xx.json", unpackAll [b!"{\"rbnf\": {\"rbnf\": {\"SpelloutRules\": {\"%spellout-cardinal\": ",
  b!"{\"-x\": \"minus >>;\", \"1\": \"one;\", \"x\\ud800\": \"point;\"}}}}}"], some smallSupplementary⟩

set_option maxRecDepth 100000 in
/-- A run over a file without rules and one with two keys that are not integers: with standard output in UTF-8 it ends without exception, in
ASCII with a `UnicodeEncodeError` at the second key; with a lone surrogate in the key, also in UTF-8.  (C66 says that the module is written; it takes a
standard output that takes everything.) -/
theorem c91_example :
    ((sayAll .utf8 [⟨u!"yy.json", unpackAll [b!"{}"], none⟩, spoken] []).1 =
      [.logged u!"\"['rbnf']['rbnf']['SpelloutRules']\" doesn't exist in yy.json", .printed u!"The given key -x is not an integer",
        .printed u!"The given key xé is not an integer", .logged u!"long_scale information missing in xx.json"] ∧
      (sayAll .utf8 [⟨u!"yy.json", unpackAll [b!"{}"], none⟩, spoken] []).2 = writeAllBytes [spoken] [] ∧ (writeAllBytes [spoken] []).2 = none) ∧
    ((sayAll .ascii [spoken] []).1 = [.printed u!"The given key -x is not an integer"] ∧ (sayAll .ascii [spoken] []).2 = ([], some .encode)) ∧
    ((sayAll .utf8 [spokenSurrogate] []).1 = [.printed u!"The given key -x is not an integer"] ∧
      (sayAll .utf8 [spokenSurrogate] []).2 = ([], some .encode)) ∧
    (writeAllBytes [spokenSurrogate] []).2 = none ∧ (writeAllBytes [spokenSurrogate] []).1.map (fun e => e.1) = [u!"xx.py"] := by
  decide +kernel

set_option maxRecDepth 100000 in
/-- The hypotheses of `c91_messages` are met. -/
example : Usual spoken ∧ (sayAll .utf8 [spoken] []).2.2 = none := ⟨usual_of_check (by decide +kernel), by decide +kernel⟩

set_option maxRecDepth 100000 in
/-- The hypotheses of `c91_refused` are met by the file with the lone surrogate, at its third rule. -/
example : ∃ data members sets before after r, JsonFile spokenSurrogate.source data ∧ SpelloutRules data (.obj members) ∧ RuleSetsOf members sets ∧
    usedRules sets = before ++ r :: after ∧ before ≠ [] ∧
    (∀ x ∈ before, ¬ RuleFails x.1 x.2 ∧ (IntegerKey x.1 ∨ Console.utf8.takes (keyText x.1) = true)) ∧ ¬ IntegerKey r.1 ∧
    Console.utf8.takes (keyText r.1) = false := by
  have hu : UsedSet u!"%spellout-cardinal" := (isValid_iff _).mp (by decide +kernel)
  refine ⟨.obj [(u!"rbnf", .obj [(u!"rbnf", .obj [(u!"SpelloutRules", .obj [(u!"%spellout-cardinal",
    .obj ([(u!"-x", u!"minus >>;"), (u!"1", u!"one;"), ([120, 0xd800], u!"point;")].map (fun r => (r.1, Json.str r.2))))])])])],
    _, [(u!"%spellout-cardinal", [(u!"-x", u!"minus >>;"), (u!"1", u!"one;"), ([120, 0xd800], u!"point;")])],
    [(u!"-x", u!"minus >>;"), (u!"1", u!"one;")], [], ([120, 0xd800], u!"point;"), (readJson_iff _ _).mp (by rfl),
    (requisite_some _ _).mp (by rfl), .used hu .nil, ?_, by simp, ?_, ?_, by decide +kernel⟩
  · unfold usedRules
    rw [List.filter_cons_of_pos (by simpa using hu)]
    rfl
  · intro x hx
    have hf : ∀ r ∈ [(u!"-x", u!"minus >>;"), (u!"1", u!"one;")], ¬ RuleFails r.1 r.2 := by
      intro r hr hf
      obtain ⟨_, _, _, hc, _⟩ := hf
      have : [(u!"-x", u!"minus >>;"), (u!"1", u!"one;")].all (fun r => decide ((ruleText r.2).count 60 ≠ 2)) = true := by decide +kernel
      rename_i hrest
      rcases hrest with ⟨h1, h2⟩ | ⟨h1, _⟩
      · simp only [List.mem_cons, List.not_mem_nil, or_false] at hr
        rcases hr with rfl | rfl
        · rename_i hk _
          have := (integerText_iff _ _).mpr hk
          revert this
          show pyIntAny u!"-x" = _ → False
          have : pyIntAny u!"-x" = none := by decide +kernel
          rw [this]; intro h; cases h
        · have hcount : (ruleText u!"one;").count 62 = 0 := by decide +kernel
          rw [hcount] at hc; cases hc
      · exact absurd h1 (of_decide_eq_true (List.all_eq_true.mp this r hr))
    refine ⟨hf x hx, .inr ?_⟩
    have : [(u!"-x", u!"minus >>;"), (u!"1", u!"one;")].all (fun r => Console.utf8.takes (keyText r.1)) = true := by decide +kernel
    exact List.all_eq_true.mp this x hx
  · exact (integerKey_none _).mp (by decide +kernel)

end NumberParser.Props
