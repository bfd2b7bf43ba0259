import Verif.Proofs.EmitRead
import Verif.Proofs.Directory
import Verif.Props.Generator
import Verif.Model.DataText

/-!
# C51, C52, C53: the generated modules and the run over the directories

Specification: Verif/Spec/Emit.lean.
-/

namespace NumberParser.Props

open NumberParser Gen Spec

/-! ### C51: a generated module reads back -/

theorem inert_of_harmless {w : PyStr} (h : Harmless w) {p : PyStr} (hp : p = u!"true" ∨ p = u!"false") : Inert p w := by
  have key : ∀ p, ¬ WholeWord p w → ¬ OccursAsWord p false w := by
    rintro p hn ⟨a, b, he, h1, h2⟩
    refine hn ⟨a, b, he, ?_, ?_⟩
    · intro c hc
      simpa [lastWord, hc] using h1
    · intro c hc
      simpa [hc] using h2
  refine ⟨h.1, ?_⟩
  rcases hp with rfl | rfl
  · exact key _ h.2.1
  · exact key _ h.2.2

/-- **C51** Importing a generated module gives exactly the dictionary that was written, with its order, if no word or
skip token has control characters or the whole words "true" and "false" in it. -/
theorem c51_read_back (sets : RuleSets) (supp : Supplementary) (out : Output) (h : generate sets supp = .ok out)
    (hw : ∀ t, ∀ e ∈ theTable out.tables t, Harmless e.1) (hk : ∀ w ∈ out.skipTokens, Harmless w) :
    importText (emit out) = some
      ([(u!"UNIT_NUMBERS", Val.table out.tables.unit), (u!"DIRECT_NUMBERS", .table out.tables.direct), (u!"TENS", .table out.tables.tens),
        (u!"HUNDREDS", .table out.tables.hundreds), (u!"BIG_POWERS_OF_TEN", .table out.tables.big), (u!"SKIP_TOKENS", .list out.skipTokens)] ++
       (match out.useLongScale with | some b => [(u!"USE_LONG_SCALE", Val.flag b)] | none => [])) := by
  have hd := c47_distinct sets supp out h
  have hmem : ∀ e ∈ out.entries, (∃ t, e.2 = .table (theTable out.tables t)) ∨ e.2 = .list out.skipTokens ∨ ∃ b, e.2 = .flag b := by
    intro e he
    unfold Output.entries at he
    rcases List.mem_append.mp he with he | he
    · simp only [List.mem_cons, List.not_mem_nil, or_false] at he
      rcases he with rfl | rfl | rfl | rfl | rfl | rfl
      · exact .inl ⟨.unit, rfl⟩
      · exact .inl ⟨.direct, rfl⟩
      · exact .inl ⟨.tens, rfl⟩
      · exact .inl ⟨.hundreds, rfl⟩
      · exact .inl ⟨.big, rfl⟩
      · exact .inr (.inl rfl)
    · cases hb : out.useLongScale with
      | none => rw [hb] at he; cases he
      | some b =>
        rw [hb] at he
        simp only [List.mem_cons, List.not_mem_nil, or_false] at he
        subst he
        exact .inr (.inr ⟨b, rfl⟩)
  refine importText_emit ?_ ?_
  · intro e he p hp
    rcases hmem e he with ⟨t, ht⟩ | ht | ⟨b, ht⟩
    · rw [ht]; exact fun x hx => inert_of_harmless (hw t x hx) hp
    · rw [ht]; exact fun x hx => inert_of_harmless (hk x hx) hp
    · rw [ht]; trivial
  · intro e he
    rcases hmem e he with ⟨t, ht⟩ | ht | ⟨b, ht⟩
    · rw [ht]; exact hd t
    · rw [ht]; trivial
    · rw [ht]; trivial

set_option maxRecDepth 100000 in
/-- Words with quotes, backslashes and parts of "true" read back. -/
example :
    importText (emit ⟨⟨[(u!"a\"b\\", 1), (u!"truest", -2)], [], [], [], [(u!"untrue false1", 10 ^ 30)]⟩, [u!"п'ять"], some true⟩) =
      some [(u!"UNIT_NUMBERS", .table [(u!"a\"b\\", 1), (u!"truest", -2)]), (u!"DIRECT_NUMBERS", .table []), (u!"TENS", .table []),
        (u!"HUNDREDS", .table []), (u!"BIG_POWERS_OF_TEN", .table [(u!"untrue false1", 10 ^ 30)]), (u!"SKIP_TOKENS", .list [u!"п'ять"]),
        (u!"USE_LONG_SCALE", .flag true)] := by decide +kernel

set_option maxRecDepth 100000 in
/-- The conditions are needed: the word "true" reads back as "True", and a tab before "rue" as a backslash with "True". -/
theorem c51_conditions :
    importText (emit ⟨⟨[(u!"true", 1), (u!"\true", 2)], [], [], [], []⟩, [], none⟩) =
      some [(u!"UNIT_NUMBERS", .table [(u!"True", 1), (u!"\\True", 2)]), (u!"DIRECT_NUMBERS", .table []), (u!"TENS", .table []),
        (u!"HUNDREDS", .table []), (u!"BIG_POWERS_OF_TEN", .table []), (u!"SKIP_TOKENS", .list [])] := by decide +kernel

set_option maxRecDepth 1000000 in
theorem emit_en : emit (shipped Data.en) = DataText.en := by decide +kernel

set_option maxRecDepth 1000000 in
theorem import_en : importText DataText.en = some (shipped Data.en).entries := by decide +kernel

set_option maxRecDepth 1000000 in
theorem emit_es : emit (shipped Data.es) = DataText.es := by decide +kernel

set_option maxRecDepth 1000000 in
theorem import_es : importText DataText.es = some (shipped Data.es).entries := by decide +kernel

set_option maxRecDepth 1000000 in
theorem emit_hi : emit (shipped Data.hi) = DataText.hi := by decide +kernel

set_option maxRecDepth 1000000 in
theorem import_hi : importText DataText.hi = some (shipped Data.hi).entries := by decide +kernel

set_option maxRecDepth 1000000 in
theorem emit_ru : emit (shipped Data.ru) = DataText.ru := by decide +kernel

set_option maxRecDepth 1000000 in
theorem import_ru : importText DataText.ru = some (shipped Data.ru).entries := by decide +kernel

set_option maxRecDepth 1000000 in
theorem emit_uk : emit (shipped Data.uk) = DataText.uk := by decide +kernel

set_option maxRecDepth 1000000 in
theorem import_uk : importText DataText.uk = some (shipped Data.uk).entries := by decide +kernel

/-- **C51** The shipped modules have exactly the text that the generator writes for their data, and importing this text
gives the data of the model. -/
theorem c51_shipped :
    (emit (shipped Data.en) = DataText.en ∧ importText DataText.en = some (shipped Data.en).entries) ∧
    (emit (shipped Data.es) = DataText.es ∧ importText DataText.es = some (shipped Data.es).entries) ∧
    (emit (shipped Data.hi) = DataText.hi ∧ importText DataText.hi = some (shipped Data.hi).entries) ∧
    (emit (shipped Data.ru) = DataText.ru ∧ importText DataText.ru = some (shipped Data.ru).entries) ∧
    (emit (shipped Data.uk) = DataText.uk ∧ importText DataText.uk = some (shipped Data.uk).entries) :=
  ⟨⟨emit_en, import_en⟩, ⟨emit_es, import_es⟩, ⟨emit_hi, import_hi⟩, ⟨emit_ru, import_ru⟩, ⟨emit_uk, import_uk⟩⟩

/-! ### C52: runs over the directories -/

/-- **C52** A run without exception leaves behind, for every source file that is not left out, exactly its module, made
from its own rules and supplementary file only, and does not touch any other target. -/
theorem c52_run (fs : List LangFiles) (T : Table PyStr) (hd : DistinctTargets fs) (hs : (writeCompleteData fs T).2 = none) (name : PyStr) :
    (∀ f ∈ fs, moduleFile f.name = name → ∀ text, ModuleFor f text → Table.get? (writeCompleteData fs T).1 name = some text) ∧
    ((∀ f ∈ fs, moduleFile f.name = name → LeftOut f) → Table.get? (writeCompleteData fs T).1 name = Table.get? T name) := by
  refine ⟨?_, run_other fs T name⟩
  rintro f hf rfl text hm
  exact run_module hd hs hf hm

/-- **C52** The order in which the directory is listed does not matter: for another order the run ends without exception
as well, and with the same targets. -/
theorem c52_order (fs fs' : List LangFiles) (hp : fs.Perm fs') (T : Table PyStr) (hd : DistinctTargets fs)
    (hs : (writeCompleteData fs T).2 = none) :
    (writeCompleteData fs' T).2 = none ∧
      ∀ name, Table.get? (writeCompleteData fs' T).1 name = Table.get? (writeCompleteData fs T).1 name := by
  have hok := (run_success fs T).mp hs
  have hs' : (writeCompleteData fs' T).2 = none := (run_success fs' T).mpr (fun f hf => hok f (hp.mem_iff.mpr hf))
  refine ⟨hs', fun name => ?_⟩
  have hd' : DistinctTargets fs' := (hp.map _).nodup_iff.mp hd
  by_cases hx : ∃ f ∈ fs, moduleFile f.name = name ∧ ∃ text, ModuleFor f text
  · obtain ⟨f, hf, hn, text, hm⟩ := hx
    rw [(c52_run fs T hd hs name).1 f hf hn text hm, (c52_run fs' T hd' hs' name).1 f (hp.mem_iff.mp hf) hn text hm]
  · have hno : ∀ fs'', (∀ f ∈ fs'', f ∈ fs) → Table.get? (writeCompleteData fs'' T).1 name = Table.get? T name := by
      intro fs'' hsub
      rcases run_targets fs'' T name with h | ⟨f, hf, hn, text, hm, _⟩
      · exact h
      · exact absurd ⟨f, hsub f hf, hn, text, hm⟩ hx
    rw [hno fs (fun f h => h), hno fs' (fun f h => hp.mem_iff.mpr h)]

/-- **C52** Whatever happens (an exception included), at the end each target is as before or is the module of one of the
source files. -/
theorem c52_exception (fs : List LangFiles) (T : Table PyStr) (name : PyStr) :
    Table.get? (writeCompleteData fs T).1 name = Table.get? T name ∨
      ∃ f ∈ fs, moduleFile f.name = name ∧ ∃ text, ModuleFor f text ∧ Table.get? (writeCompleteData fs T).1 name = some text :=
  run_targets fs T name

/-- **C52** If the run is killed at any moment, all targets but at most one are as before or complete; the exception is
a beginning of its module. -/
theorem c52_killed (fs : List LangFiles) (T S : Table PyStr) (h : Visible fs T S) :
    ∃ broken : Option PyStr, ∀ name,
      (Table.get? S name = Table.get? T name ∨ ∃ f ∈ fs, moduleFile f.name = name ∧ ∃ text, ModuleFor f text ∧ Table.get? S name = some text) ∨
      (broken = some name ∧ ∃ f ∈ fs, moduleFile f.name = name ∧ ∃ text part, ModuleFor f text ∧ part <+: text ∧ Table.get? S name = some part) :=
  visible_targets h

/-- Three source files: one is left out, the others are not. -/
def threeFiles : List LangFiles :=
  [⟨u!"root.json", none, none⟩,
   ⟨u!"xx.json", some [(u!"%spellout-cardinal", [(u!"2", u!"two;")])], some ⟨Tables.empty, [], none⟩⟩,
   ⟨u!"yy.json", some [], some ⟨Tables.empty, [u!"and"], some true⟩⟩]

set_option maxRecDepth 100000 in
example : DistinctTargets threeFiles ∧ (writeCompleteData threeFiles [(u!"xx.py", u!"old"), (u!"zz.py", u!"old")]).2 = none ∧
    Table.get? (writeCompleteData threeFiles [(u!"xx.py", u!"old"), (u!"zz.py", u!"old")]).1 (u!"zz.py") = some u!"old" ∧
    ((writeCompleteData threeFiles [(u!"xx.py", u!"old"), (u!"zz.py", u!"old")]).1).map (fun e => e.1) = [u!"xx.py", u!"zz.py", u!"yy.py"] := by
  unfold DistinctTargets
  decide +kernel

set_option maxRecDepth 100000 in
/-- A killed run can leave an old module truncated: the target is opened for writing, which empties it, before the text
is written. -/
theorem c52_truncated : ∃ S, Visible threeFiles [(u!"xx.py", u!"old")] S ∧ Table.get? S (u!"xx.py") = some [] ∧
    importText [] = none := by
  refine ⟨Table.set [(u!"xx.py", u!"old")] (u!"xx.py") [], ?_, by decide, by decide⟩
  refine Visible.later _ _ _ [(u!"xx.py", u!"old")] _ (by decide +kernel) ?_
  refine Visible.during _ _ _ (emit ⟨⟨[(u!"two", 2)], [], [], [], []⟩, [], none⟩) [] (by decide +kernel) List.nil_prefix

/-! ### C53: when the generator fails -/

/-- **C53** Generating the data of a language ends without exception exactly if no used rule fails. -/
theorem c53_generate (sets : RuleSets) (supp : Supplementary) :
    (∃ out, generate sets supp = .ok out) ↔ ∀ r ∈ usedRules sets, ¬ RuleFails r.1 r.2 := generate_error sets supp

/-- **C53** A run over the directories ends without exception exactly if no source file fails. -/
theorem c53_run (fs : List LangFiles) (T : Table PyStr) : (writeCompleteData fs T).2 = none ↔ ∀ f ∈ fs, ¬ FileFails f := run_success fs T

/-- **C53** In particular a rule with a number of less than three hundred digits fails only if its text ends with "<"
(after semicolons and soft hyphens are removed). -/
theorem c53_ordinary (key rule : PyStr) (number : Int) (hk : IntegerText key number) (hn : number < 10 ^ 300)
    (hr : (ruleText rule).getLast? ≠ some 60) : ¬ RuleFails key rule := by
  have hh : ¬ HugeNumber number := by
    rintro ⟨_, h⟩
    have p0 : (10 : Nat) ^ 300 < 10 * (2 ^ 1024 - 2 ^ 970) := by
      have p1 : (10 : Nat) ^ 300 ≤ 16 ^ 300 := Nat.pow_le_pow_left (by decide) _
      have p2 : (16 : Nat) ^ 300 = 2 ^ 1200 := by rw [show (16 : Nat) = 2 ^ 4 from rfl, ← Nat.pow_mul]
      decide +kernel
    have e1 : (2 : Int) ^ 1024 = ((2 ^ 1024 : Nat) : Int) := by rw [Int.natCast_pow]; rfl
    have e2 : (2 : Int) ^ 970 = ((2 ^ 970 : Nat) : Int) := by rw [Int.natCast_pow]; rfl
    have e3 : (10 : Int) ^ 300 = ((10 ^ 300 : Nat) : Int) := by rw [Int.natCast_pow]; rfl
    rw [e1, e2] at h
    rw [e3] at hn
    have p3 : (2 : Nat) ^ 970 ≤ 2 ^ 1024 := Nat.pow_le_pow_right (by decide) (by decide)
    generalize (2 : Nat) ^ 1024 = B at *
    generalize (2 : Nat) ^ 970 = A at *
    generalize (10 : Nat) ^ 300 = C at *
    omega
  rintro ⟨n, hk', _, _, ⟨_, h⟩ | ⟨h60, h | ⟨h, _⟩⟩⟩
  · rw [← integerText_iff] at hk hk'; rw [hk] at hk'; injection hk' with hk'; subst hk'; exact hh h
  · obtain ⟨_, h | ⟨rest, h⟩⟩ := h
    · rw [← h] at h60; cases h60
    · apply hr; rw [h]; simp
  · rw [← integerText_iff] at hk hk'; rw [hk] at hk'; injection hk' with hk'; subst hk'; exact hh h

set_option maxRecDepth 100000 in
example : ¬ RuleFails u!"1000" u!"<< thousand[ >>];" :=
  c53_ordinary _ _ 1000 ((integerText_iff _ _).mp (by decide +kernel)) (by decide +kernel) (by decide +kernel)

end NumberParser.Props
