import Verif.Spec.Files
import Verif.Proofs.JsonBreaks
import Verif.Proofs.JsonValue
import Verif.Proofs.Utf8
import Verif.Proofs.Extract
import Verif.Proofs.Directory

/-! # The generator on the level of files -/

namespace NumberParser

open Gen Spec

theorem utf8_unique {s s' : PyStr} {b : Bytes} (h : Utf8 s b) (h' : Utf8 s' b) : s = s' := by
  have h1 := (utf8Decode_iff b s).mpr h
  rw [(utf8Decode_iff b s').mpr h'] at h1
  injection h1 with h1; exact h1.symm

theorem utf8_bytes_unique {s : PyStr} {b b' : Bytes} (h : Utf8 s b) (h' : Utf8 s b') : b = b' := by
  have h1 := (utf8Encode_iff s b).mpr h
  rw [(utf8Encode_iff s b').mpr h'] at h1
  injection h1 with h1; exact h1.symm

theorem readJson_iff (b : Bytes) (v : Json) : readJson b = .ok v ↔ JsonFile b v := by
  unfold readJson JsonFile
  constructor
  · intro h
    cases hd : utf8Decode b with
    | none => rw [hd] at h; cases h
    | some s =>
      rw [hd] at h
      simp only at h
      cases hl : loads (newlines s) with
      | none => rw [hl] at h; cases h
      | some w =>
        rw [hl] at h
        injection h with h
        subst h
        exact ⟨s, (utf8Decode_iff b s).mp hd, (text_newlines s w).mp ((loads_iff _ _).mp hl)⟩
  · rintro ⟨s, h1, h2⟩
    rw [(utf8Decode_iff b s).mpr h1]
    simp only
    rw [(loads_iff (newlines s) v).mpr ((text_newlines s v).mpr h2)]
    rfl

theorem readJson_error (b : Bytes) : readJson b = .error .value ↔ ¬ ∃ v, JsonFile b v := by
  constructor
  · rintro h ⟨v, hv⟩
    rw [(readJson_iff b v).mpr hv] at h; cases h
  · intro h
    have hn : ∀ v, readJson b ≠ .ok v := fun v hv => h ⟨v, (readJson_iff b v).mp hv⟩
    revert hn
    unfold readJson
    cases utf8Decode b with
    | none => intro _; rfl
    | some s =>
      simp only
      cases loads (newlines s) with
      | none => intro _; rfl
      | some v => intro hn; exact absurd rfl (hn v)

theorem jsonFile_unique {b : Bytes} {v v' : Json} (h : JsonFile b v) (h' : JsonFile b v') : v = v' := by
  have h1 := (readJson_iff b v).mpr h
  rw [(readJson_iff b v').mpr h'] at h1
  injection h1 with h1; exact h1.symm

/-! ## Members -/

theorem get?_some_split {α : Type} (t : Table α) (k : PyStr) (v : α) :
    Table.get? t k = some v ↔ ∃ a b, t = a ++ (k, v) :: b ∧ ∀ e ∈ a, e.1 ≠ k := by
  induction t with
  | nil => simp [Table.get?]
  | cons x t ih =>
    obtain ⟨k', v'⟩ := x
    rw [Table.get?]
    by_cases hk : k' = k
    · subst hk
      rw [if_pos (beq_self_eq_true _)]
      constructor
      · intro h; injection h with h; subst h; exact ⟨[], t, rfl, fun _ h => nomatch h⟩
      · rintro ⟨a, b, e, hne⟩
        cases a with
        | nil => injection e with e1 _; injection e1 with _ e2; rw [e2]
        | cons y a =>
          injection e with e1 _
          subst e1
          exact absurd rfl (hne (k', v') (by simp))
    · rw [if_neg (by simpa using hk), ih]
      constructor
      · rintro ⟨a, b, e, hne⟩
        refine ⟨(k', v') :: a, b, by rw [e]; rfl, ?_⟩
        intro e he
        rcases List.mem_cons.mp he with rfl | he
        · exact hk
        · exact hne e he
      · rintro ⟨a, b, e, hne⟩
        cases a with
        | nil => injection e with e1 _; injection e1 with e2 _; exact absurd e2 hk
        | cons y a =>
          injection e with _ e2
          exact ⟨a, b, e2, fun e he => hne e (List.mem_cons_of_mem _ he)⟩

theorem get?_none_iff {α : Type} (t : Table α) (k : PyStr) : Table.get? t k = none ↔ ∀ e ∈ t, e.1 ≠ k := by
  induction t with
  | nil => simp [Table.get?]
  | cons x t ih =>
    obtain ⟨k', v'⟩ := x
    rw [Table.get?]
    by_cases hk : k' = k
    · subst hk
      rw [if_pos (beq_self_eq_true _)]
      constructor
      · intro h; cases h
      · intro h; exact absurd rfl (h (k', v') (by simp))
    · rw [if_neg (by simpa using hk), ih]
      simp [hk]

theorem jget_ok (data : Json) (k : PyStr) (v : Json) : jget data k = .ok v ↔ Entry data k v := by
  unfold jget Entry
  constructor
  · intro h
    cases data with
    | obj t =>
      simp only at h
      cases hg : Table.get? t k with
      | none => rw [hg] at h; cases h
      | some w =>
        rw [hg] at h
        injection h with h
        subst h
        obtain ⟨a, b, e, hne⟩ := (get?_some_split t k w).mp hg
        exact ⟨a, b, by rw [e], hne⟩
    | _ => cases h
  · rintro ⟨a, b, rfl, hne⟩
    simp only
    rw [(get?_some_split _ k v).mpr ⟨a, b, rfl, hne⟩]
    rfl

theorem jget_key (data : Json) (k : PyStr) : jget data k = .error .key ↔ Lacks data k := by
  unfold jget Lacks
  constructor
  · intro h
    cases data with
    | obj t =>
      simp only at h
      cases hg : Table.get? t k with
      | none => exact ⟨t, rfl, (get?_none_iff t k).mp hg⟩
      | some w => rw [hg] at h; cases h
    | _ => cases h
  · rintro ⟨t, rfl, hne⟩
    simp only
    rw [(get?_none_iff t k).mpr hne]
    rfl

theorem entry_unique {data v v' : Json} {k : PyStr} (h : Entry data k v) (h' : Entry data k v') : v = v' := by
  have h1 := (jget_ok data k v).mpr h
  rw [(jget_ok data k v').mpr h'] at h1
  injection h1 with h1; exact h1.symm

theorem requisite_some (data v : Json) : requisiteData data = .ok (some v) ↔ SpelloutRules data v := by
  unfold requisiteData SpelloutRules
  simp only [bind, Except.bind, ← jget_ok]
  constructor
  · intro h
    cases ha : jget data u!"rbnf" with
    | error e => rw [ha] at h; cases e <;> cases h
    | ok a =>
      rw [ha] at h; simp only at h
      cases hb : jget a u!"rbnf" with
      | error e => rw [hb] at h; cases e <;> cases h
      | ok b =>
        rw [hb] at h; simp only at h
        cases hc : jget b u!"SpelloutRules" with
        | error e => rw [hc] at h; cases e <;> cases h
        | ok c =>
          rw [hc] at h; injection h with h; injection h with h; subst h
          exact ⟨a, b, rfl, hb, hc⟩
  · rintro ⟨a, b, ha, hb, hc⟩
    rw [ha]; simp only; rw [hb]; simp only; rw [hc]; rfl

theorem requisite_none (data : Json) : requisiteData data = .ok none ↔ NoSpelloutRules data := by
  unfold requisiteData NoSpelloutRules
  simp only [bind, Except.bind, ← jget_ok, ← jget_key]
  constructor
  · intro h
    cases ha : jget data u!"rbnf" with
    | error e =>
      rw [ha] at h
      cases e <;> first | exact .inl rfl | cases h
    | ok a =>
      rw [ha] at h; simp only at h
      right
      refine ⟨a, rfl, ?_⟩
      cases hb : jget a u!"rbnf" with
      | error e =>
        rw [hb] at h
        cases e <;> first | exact .inl rfl | cases h
      | ok b =>
        rw [hb] at h; simp only at h
        right
        refine ⟨b, rfl, ?_⟩
        cases hc : jget b u!"SpelloutRules" with
        | error e =>
          rw [hc] at h
          cases e <;> first | rfl | cases h
        | ok c => rw [hc] at h; cases h
  · rintro (ha | ⟨a, ha, hb | ⟨b, hb, hc⟩⟩)
    · rw [ha]; rfl
    · rw [ha]; simp only; rw [hb]; rfl
    · rw [ha]; simp only; rw [hb]; simp only; rw [hc]; rfl

/-! ## The rules -/

theorem extractRulesJson_str (rules : List (PyStr × PyStr)) (d : Tables Int) :
    extractRulesJson (.obj (rules.map (fun r => (r.1, Json.str r.2)))) d = liftGen (extractRules rules d) := by
  unfold extractRulesJson extractRules
  simp only
  induction rules generalizing d with
  | nil => rfl
  | cons r rules ih =>
    rw [List.map_cons, List.foldlM_cons, List.foldlM_cons]
    simp only
    cases extractInformation r.1 (replace r.2 [0xad] []) d with
    | error e => rfl
    | ok d' => exact ih d'

/-- The rules of a set can be read only if they are strings. -/
theorem extractRulesJson_ok {v : Json} {d d' : Tables Int} (h : extractRulesJson v d = .ok d') :
    ∃ rules : List (PyStr × PyStr), v = .obj (rules.map (fun r => (r.1, Json.str r.2))) := by
  unfold extractRulesJson at h
  cases v with
  | obj items =>
    simp only at h
    induction items generalizing d with
    | nil => exact ⟨[], rfl⟩
    | cons r items ih =>
      obtain ⟨k, v⟩ := r
      rw [List.foldlM_cons] at h
      cases v with
      | str w =>
        simp only at h
        cases hx : extractInformation k (replace w [0xad] []) d with
        | error e => rw [hx] at h; cases h
        | ok d'' =>
          rw [hx] at h
          obtain ⟨rules, e⟩ := ih h
          injection e with e
          exact ⟨(k, w) :: rules, by rw [e]; rfl⟩
      | _ => cases h
  | _ => cases h

theorem extractSets_lift {members : List (PyStr × Json)} {sets : RuleSets} (h : RuleSetsOf members sets) (d : Tables Int) :
    members.foldlM (fun d s => if isValid s.1 then extractRulesJson s.2 d else (return d : FRes (Tables Int))) d =
      liftGen (sets.foldlM (fun d s => if isValid s.1 then extractRules s.2 d else (return d : GRes (Tables Int))) d) := by
  induction h generalizing d with
  | nil => rfl
  | @used name rules t sets hu _ ih =>
    rw [List.foldlM_cons, List.foldlM_cons]
    simp only
    rw [if_pos ((isValid_iff name).mpr hu), if_pos ((isValid_iff name).mpr hu), extractRulesJson_str]
    cases extractRules rules d with
    | error e => rfl
    | ok d' => exact ih d'
  | @unused name v t sets hu _ ih =>
    have hv : ¬ isValid name = true := fun h => hu ((isValid_iff name).mp h)
    rw [List.foldlM_cons, List.foldlM_cons]
    simp only
    rw [if_neg hv, if_neg hv]
    exact ih d

theorem extractJson_lift {members : List (PyStr × Json)} {sets : RuleSets} (h : RuleSetsOf members sets) :
    extractJson (.obj members) = liftGen (extract sets) := extractSets_lift h Tables.empty

theorem extractJson_ok {v : Json} {d : Tables Int} (h : extractJson v = .ok d) :
    ∃ members sets, v = .obj members ∧ RuleSetsOf members sets := by
  unfold extractJson at h
  cases v with
  | obj members =>
    simp only at h
    generalize Tables.empty = d0 at h
    refine ⟨members, ?_⟩
    suffices hs : ∃ sets, RuleSetsOf members sets from hs.elim fun sets hs => ⟨sets, rfl, hs⟩
    induction members generalizing d0 with
    | nil => exact ⟨[], .nil⟩
    | cons s members ih =>
      obtain ⟨name, v⟩ := s
      rw [List.foldlM_cons] at h
      simp only at h
      by_cases hv : isValid name = true
      · rw [if_pos hv] at h
        cases hx : extractRulesJson v d0 with
        | error e => rw [hx] at h; cases h
        | ok d1 =>
          rw [hx] at h
          obtain ⟨sets, hs⟩ := ih _ h
          obtain ⟨rules, rfl⟩ := extractRulesJson_ok hx
          exact ⟨_, .used ((isValid_iff name).mp hv) hs⟩
      · rw [if_neg hv] at h
        obtain ⟨sets, hs⟩ := ih _ h
        exact ⟨_, .unused (fun hu => hv ((isValid_iff name).mpr hu)) hs⟩
  | _ => cases h

/-! ## The supplementary file -/

theorem jsonNum_iff (v : Json) (x : JNum) : jsonNum v = .ok x ↔ NumberOf v x := by
  constructor
  · intro h
    cases v with
    | int n => injection h with h; subst h; exact .int n
    | bool b => cases b <;> (injection h with h; subst h; constructor)
    | float y =>
      cases y with
      | fin y => injection h with h; subst h; exact .float y
      | _ => cases h
    | _ => cases h
  · intro h; cases h <;> rfl

theorem jsonTableOf_iff (v : Json) (t : Table JNum) : jsonTableOf v = .ok t ↔ ∃ members, v = .obj members ∧ NumbersOf members t := by
  have key : ∀ (members : List (PyStr × Json)) (t : Table JNum),
      members.mapM (fun e => (do return (e.1, ← jsonNum e.2) : FRes (PyStr × JNum))) = .ok t ↔ NumbersOf members t := by
    intro members
    induction members with
    | nil =>
      intro t
      rw [List.mapM_nil]
      constructor
      · intro h; injection h with h; subst h; exact .nil
      · intro h; cases h; rfl
    | cons e members ih =>
      intro t
      obtain ⟨w, v⟩ := e
      rw [List.mapM_cons]
      constructor
      · intro h
        cases hx : jsonNum v with
        | error e => rw [hx] at h; cases h
        | ok x =>
          cases hr : members.mapM (fun e => (do return (e.1, ← jsonNum e.2) : FRes (PyStr × JNum))) with
          | error e => rw [hx, hr] at h; cases h
          | ok t' =>
            rw [hx, hr] at h
            injection h with h
            subst h
            exact .cons ((jsonNum_iff v x).mp hx) ((ih t').mp hr)
      · intro h
        cases h with
        | cons h1 h2 =>
          rw [(jsonNum_iff _ _).mpr h1, (ih _).mpr h2]
          rfl
  unfold jsonTableOf
  constructor
  · intro h
    cases v with
    | obj members => exact ⟨members, rfl, (key members t).mp h⟩
    | _ => cases h
  · rintro ⟨members, rfl, h⟩
    exact (key members t).mpr h

theorem jsonStrings_iff (l : List Json) (ts : List PyStr) : jsonStrings l = some ts ↔ l = ts.map .str := by
  induction l generalizing ts with
  | nil => cases ts <;> simp [jsonStrings]
  | cons v l ih =>
    constructor
    · intro h
      cases v with
      | str s =>
        rw [jsonStrings] at h
        cases hj : jsonStrings l with
        | none => rw [hj] at h; cases h
        | some r =>
          rw [hj] at h
          injection h with h
          subst h
          rw [List.map_cons, (ih r).mp hj]
      | _ => cases h
    · intro h
      cases ts with
      | nil => cases h
      | cons s ts =>
        injection h with h1 h2
        subst h1
        rw [jsonStrings, (ih ts).mpr h2]; rfl

theorem jsonTokens_iff (v : Json) (ts : List PyStr) : jsonTokens v = .ok ts ↔ TokensOf v ts := by
  unfold jsonTokens
  constructor
  · intro h
    cases v with
    | arr l =>
      simp only at h
      cases hj : jsonStrings l with
      | none => rw [hj] at h; cases h
      | some r =>
        rw [hj] at h; injection h with h; subst h
        rw [(jsonStrings_iff l r).mp hj]
        exact .list r
    | str s => injection h with h; subst h; exact .characters s
    | obj t => injection h with h; subst h; exact .names t
    | _ => cases h
  · intro h
    cases h with
    | list ts =>
      simp only
      rw [(jsonStrings_iff _ ts).mpr rfl]
      rfl
    | characters s => rfl
    | names t => rfl

theorem longScaleOf_iff (data : Json) (o : Option Bool) : longScaleOf data = .ok o ↔
    match o with
    | some b => Entry data u!"USE_LONG_SCALE" (.bool b)
    | none => Lacks data u!"USE_LONG_SCALE" := by
  unfold longScaleOf
  cases o with
  | some b =>
    simp only
    rw [← jget_ok]
    constructor
    · intro h
      cases hj : jget data u!"USE_LONG_SCALE" with
      | error e => rw [hj] at h; cases e <;> cases h
      | ok v =>
        rw [hj] at h
        cases v with
        | bool b' => injection h with h; injection h with h; subst h; rfl
        | _ => cases h
    · intro h; rw [h]; rfl
  | none =>
    simp only
    rw [← jget_key]
    constructor
    · intro h
      cases hj : jget data u!"USE_LONG_SCALE" with
      | error e => rw [hj] at h; cases e <;> first | rfl | cases h
      | ok v => rw [hj] at h; cases v <;> cases h
    · intro h; rw [h]; rfl

theorem tableEntry_iff (data : Json) (k : PyStr) (t : Table JNum) :
    (jget data k >>= jsonTableOf) = .ok t ↔ ∃ members, Entry data k (.obj members) ∧ NumbersOf members t := by
  constructor
  · intro h
    cases hj : jget data k with
    | error e => rw [hj] at h; cases h
    | ok v =>
      rw [hj] at h
      obtain ⟨members, rfl, hn⟩ := (jsonTableOf_iff v t).mp h
      exact ⟨members, (jget_ok _ _ _).mp hj, hn⟩
  · rintro ⟨members, he, hn⟩
    rw [(jget_ok _ _ _).mpr he]
    exact (jsonTableOf_iff _ t).mpr ⟨members, rfl, hn⟩

theorem tokensEntry_iff (data : Json) (k : PyStr) (ts : List PyStr) :
    (jget data k >>= jsonTokens) = .ok ts ↔ ∃ v, Entry data k v ∧ TokensOf v ts := by
  constructor
  · intro h
    cases hj : jget data k with
    | error e => rw [hj] at h; cases h
    | ok v =>
      rw [hj] at h
      exact ⟨v, (jget_ok _ _ _).mp hj, (jsonTokens_iff v ts).mp h⟩
  · rintro ⟨v, he, hn⟩
    rw [(jget_ok _ _ _).mpr he]
    exact (jsonTokens_iff v ts).mpr hn

/-- What `generate` makes of extracted tables -/
def mergeOut (d : Tables Int) (supp : Supplementary) : Output :=
  ⟨⟨orderTable d.unit supp.tables.unit, orderTable d.direct supp.tables.direct, orderTable d.tens supp.tables.tens,
    orderTable d.hundreds supp.tables.hundreds, orderTable d.big supp.tables.big⟩, sortBy strLt supp.skipTokens, supp.useLongScale⟩

theorem mergeJson_ok {d : Tables Int} {data : Json} {out : Output} (h : mergeJson d data = .ok out) :
    ∃ supp, SupplementaryOf data supp ∧ out = mergeOut d supp := by
  unfold mergeJson at h
  cases h1 : (jget data u!"UNIT_NUMBERS" >>= jsonTableOf) with
  | error e => rw [h1] at h; cases h
  | ok unit =>
  cases h2 : (jget data u!"DIRECT_NUMBERS" >>= jsonTableOf) with
  | error e => rw [h1, h2] at h; cases h
  | ok direct =>
  cases h3 : (jget data u!"TENS" >>= jsonTableOf) with
  | error e => rw [h1, h2, h3] at h; cases h
  | ok tens =>
  cases h4 : (jget data u!"HUNDREDS" >>= jsonTableOf) with
  | error e => rw [h1, h2, h3, h4] at h; cases h
  | ok hundreds =>
  cases h5 : (jget data u!"BIG_POWERS_OF_TEN" >>= jsonTableOf) with
  | error e => rw [h1, h2, h3, h4, h5] at h; cases h
  | ok big =>
  cases h6 : (jget data u!"SKIP_TOKENS" >>= jsonTokens) with
  | error e => rw [h1, h2, h3, h4, h5, h6] at h; cases h
  | ok skip =>
  cases h7 : longScaleOf data with
  | error e => rw [h1, h2, h3, h4, h5, h6, h7] at h; cases h
  | ok scale =>
    rw [h1, h2, h3, h4, h5, h6, h7] at h
    injection h with h
    subst h
    refine ⟨⟨⟨unit, direct, tens, hundreds, big⟩, skip, scale⟩, ⟨?_, ?_, ?_⟩, rfl⟩
    · intro t
      cases t
      · exact (tableEntry_iff _ _ _).mp h1
      · exact (tableEntry_iff _ _ _).mp h2
      · exact (tableEntry_iff _ _ _).mp h3
      · exact (tableEntry_iff _ _ _).mp h4
      · exact (tableEntry_iff _ _ _).mp h5
    · exact (tokensEntry_iff _ _ _).mp h6
    · exact (longScaleOf_iff data scale).mp h7

theorem mergeJson_of {data : Json} {supp : Supplementary} (h : SupplementaryOf data supp) (d : Tables Int) :
    mergeJson d data = .ok (mergeOut d supp) := by
  obtain ⟨h1, h2, h3⟩ := h
  unfold mergeJson
  have e1 : (jget data u!"UNIT_NUMBERS" >>= jsonTableOf) = .ok supp.tables.unit := (tableEntry_iff _ _ _).mpr (h1 .unit)
  have e2 : (jget data u!"DIRECT_NUMBERS" >>= jsonTableOf) = .ok supp.tables.direct := (tableEntry_iff _ _ _).mpr (h1 .direct)
  have e3 : (jget data u!"TENS" >>= jsonTableOf) = .ok supp.tables.tens := (tableEntry_iff _ _ _).mpr (h1 .tens)
  have e4 : (jget data u!"HUNDREDS" >>= jsonTableOf) = .ok supp.tables.hundreds := (tableEntry_iff _ _ _).mpr (h1 .hundreds)
  have e5 : (jget data u!"BIG_POWERS_OF_TEN" >>= jsonTableOf) = .ok supp.tables.big := (tableEntry_iff _ _ _).mpr (h1 .big)
  have e6 : (jget data u!"SKIP_TOKENS" >>= jsonTokens) = .ok supp.skipTokens := (tokensEntry_iff _ _ _).mpr h2
  have e7 : longScaleOf data = .ok supp.useLongScale := (longScaleOf_iff data _).mpr h3
  rw [e1, e2, e3, e4, e5, e6, e7]
  rfl

theorem jget_not_unmodelled (data : Json) (k : PyStr) : jget data k ≠ .error .unmodelled := by
  intro h
  unfold jget at h
  cases data with
  | obj t =>
    simp only at h
    cases ht : Table.get? t k with
    | some v => rw [ht] at h; cases h
    | none => rw [ht] at h; cases h
  | _ => cases h

theorem jsonNum_usual {v : Json} (h : ∀ s, v ≠ .str s) : jsonNum v ≠ .error .unmodelled := by
  intro hv
  cases v with
  | str s => exact h s rfl
  | float x => cases x <;> cases hv
  | _ => cases hv

theorem jsonTableOf_usual {v : Json} (h1 : ∀ l, v ≠ .arr l) (h2 : ∀ s, v ≠ .str s)
    (h3 : ∀ members, v = .obj members → ∀ e ∈ members, ∀ s, e.2 ≠ .str s) : jsonTableOf v ≠ .error .unmodelled := by
  have key : ∀ (members : List (PyStr × Json)), (∀ e ∈ members, ∀ s, e.2 ≠ .str s) →
      members.mapM (fun e => (do return (e.1, ← jsonNum e.2) : FRes (PyStr × JNum))) ≠ .error .unmodelled := by
    intro members
    induction members with
    | nil => intro _ h; cases h
    | cons m members ih =>
      intro hm h
      rw [List.mapM_cons] at h
      cases hx : jsonNum m.2 with
      | error e =>
        simp only [bind, Except.bind, hx] at h
        injection h with h
        subst h
        exact jsonNum_usual (hm m (by simp)) hx
      | ok x =>
        simp only [bind, Except.bind, hx, pure, Except.pure] at h
        have ih := ih (fun e he => hm e (List.mem_cons_of_mem _ he))
        simp only [bind, Except.bind, pure, Except.pure] at ih
        split at h
        · rename_i e he
          injection h with h
          subst h
          exact ih he
        · cases h
  cases v with
  | obj members => exact key members (h3 members rfl)
  | arr l => exact absurd rfl (h1 l)
  | str s => exact absurd rfl (h2 s)
  | _ => intro h; cases h

theorem tableEntry_usual {data : Json} (h : UsualData data) (t : TableName) :
    (jget data (tableKey t) >>= jsonTableOf) ≠ .error .unmodelled := by
  intro hx
  cases hj : jget data (tableKey t) with
  | error e =>
    rw [hj] at hx
    injection hx with hx
    subst hx
    exact jget_not_unmodelled _ _ hj
  | ok v =>
    rw [hj] at hx
    obtain ⟨h1, h2, h3⟩ := h.1 t v ((jget_ok _ _ _).mp hj)
    exact jsonTableOf_usual h1 h2 h3 hx

theorem jsonStrings_usual {l : List Json} (h : ∀ x ∈ l, ∃ s, x = .str s) : ∃ ts, jsonStrings l = some ts := by
  induction l with
  | nil => exact ⟨[], rfl⟩
  | cons x l ih =>
    obtain ⟨s, rfl⟩ := h x (by simp)
    obtain ⟨ts, ht⟩ := ih (fun y hy => h y (List.mem_cons_of_mem _ hy))
    exact ⟨s :: ts, by rw [jsonStrings, ht]; rfl⟩

theorem tokensEntry_usual {data : Json} (h : UsualData data) : (jget data u!"SKIP_TOKENS" >>= jsonTokens) ≠ .error .unmodelled := by
  intro hx
  cases hj : jget data u!"SKIP_TOKENS" with
  | error e =>
    rw [hj] at hx
    injection hx with hx
    subst hx
    exact jget_not_unmodelled _ _ hj
  | ok v =>
    rw [hj] at hx
    cases v with
    | arr l =>
      obtain ⟨ts, ht⟩ := jsonStrings_usual (h.2.1 l ((jget_ok _ _ _).mp hj))
      simp only [bind, Except.bind, jsonTokens, ht] at hx
      cases hx
    | _ => cases hx

theorem longScale_usual {data : Json} (h : UsualData data) : longScaleOf data ≠ .error .unmodelled := by
  intro hx
  unfold longScaleOf at hx
  cases hj : jget data u!"USE_LONG_SCALE" with
  | error e =>
    rw [hj] at hx
    cases e with
    | unmodelled => exact jget_not_unmodelled _ _ hj
    | _ => cases hx
  | ok v =>
    obtain ⟨b, rfl⟩ := h.2.2 v ((jget_ok _ _ _).mp hj)
    rw [hj] at hx
    cases hx

theorem mergeJson_usual {data : Json} (h : UsualData data) (d : Tables Int) : mergeJson d data ≠ .error .unmodelled := by
  intro hx
  unfold mergeJson at hx
  cases h1 : (jget data u!"UNIT_NUMBERS" >>= jsonTableOf) with
  | error e => rw [h1] at hx; injection hx with hx; subst hx; exact tableEntry_usual h .unit h1
  | ok _ =>
  cases h2 : (jget data u!"DIRECT_NUMBERS" >>= jsonTableOf) with
  | error e => rw [h1, h2] at hx; injection hx with hx; subst hx; exact tableEntry_usual h .direct h2
  | ok _ =>
  cases h3 : (jget data u!"TENS" >>= jsonTableOf) with
  | error e => rw [h1, h2, h3] at hx; injection hx with hx; subst hx; exact tableEntry_usual h .tens h3
  | ok _ =>
  cases h4 : (jget data u!"HUNDREDS" >>= jsonTableOf) with
  | error e => rw [h1, h2, h3, h4] at hx; injection hx with hx; subst hx; exact tableEntry_usual h .hundreds h4
  | ok _ =>
  cases h5 : (jget data u!"BIG_POWERS_OF_TEN" >>= jsonTableOf) with
  | error e => rw [h1, h2, h3, h4, h5] at hx; injection hx with hx; subst hx; exact tableEntry_usual h .big h5
  | ok _ =>
  cases h6 : (jget data u!"SKIP_TOKENS" >>= jsonTokens) with
  | error e => rw [h1, h2, h3, h4, h5, h6] at hx; injection hx with hx; subst hx; exact tokensEntry_usual h h6
  | ok _ =>
  cases h7 : longScaleOf data with
  | error e => rw [h1, h2, h3, h4, h5, h6, h7] at hx; injection hx with hx; subst hx; exact longScale_usual h h7
  | ok _ => rw [h1, h2, h3, h4, h5, h6, h7] at hx; cases hx

theorem mergeText_ok {d : Tables Int} {data : Json} {out : Output} (h : mergeJson d data = .ok out) : mergeText d data = .ok (emit out) := by
  unfold mergeText
  rw [h]

theorem mergeText_usual {d : Tables Int} {data : Json} {text : PyStr} (h : UsualData data) (ht : mergeText d data = .ok text) :
    ∃ out, mergeJson d data = .ok out ∧ text = emit out := by
  unfold mergeText at ht
  cases hm : mergeJson d data with
  | ok out => rw [hm] at ht; injection ht with ht; exact ⟨out, rfl, ht.symm⟩
  | error e =>
    rw [hm] at ht
    cases e with
    | unmodelled => exact absurd hm (mergeJson_usual h d)
    | _ => cases ht

theorem generate_merge {sets : RuleSets} {supp : Supplementary} {out : Output} :
    generate sets supp = .ok out ↔ ∃ d, extract sets = .ok d ∧ out = mergeOut d supp := by
  unfold generate
  cases extract sets with
  | error e =>
    constructor
    · intro h; cases h
    · rintro ⟨d, h, _⟩; cases h
  | ok d =>
    constructor
    · intro h; injection h with h; exact ⟨d, rfl, h.symm⟩
    · rintro ⟨d', h, rfl⟩; injection h with h; subst h; rfl

theorem skipped_special (n : PyStr) : SKIPPED_FILES.elem n = true ↔ SpecialName n := skipped_iff n

/-! ## One language -/

theorem newTextBytes_none (f : LangBytes) : newTextBytes f = .ok none ↔ LeftOutBytes f := by
  unfold newTextBytes LeftOutBytes
  by_cases hs : SpecialName f.name
  · rw [if_pos ((skipped_special _).mpr hs)]
    exact ⟨fun _ => .inl hs, fun _ => rfl⟩
  · rw [if_neg (fun h => hs ((skipped_special _).mp h))]
    simp only [hs, false_or]
    constructor
    · intro h
      cases hr : readJson f.source with
      | error e => rw [hr] at h; cases h
      | ok data =>
        refine ⟨data, (readJson_iff _ _).mp hr, (requisite_none data).mp ?_⟩
        rw [hr] at h
        cases hq : requisiteData data with
        | error e => simp only [bind, Except.bind, hq] at h; cases h
        | ok o =>
          cases o with
          | none => rfl
          | some v =>
            exfalso
            simp only [bind, Except.bind, hq] at h
            cases he : extractJson v with
            | error e => rw [he] at h; cases h
            | ok d =>
              rw [he] at h
              simp only at h
              cases hf : f.supplementary with
              | none => rw [hf] at h; cases h
              | some b =>
                rw [hf] at h
                simp only at h
                cases hb : readJson b with
                | error e => rw [hb] at h; cases h
                | ok data' =>
                  rw [hb] at h
                  simp only at h
                  cases hm : mergeText d data' with
                  | error e => rw [hm] at h; cases h
                  | ok out => rw [hm] at h; cases h
    · rintro ⟨data, h1, h2⟩
      rw [(readJson_iff _ _).mpr h1]
      simp only [bind, Except.bind, (requisite_none data).mpr h2]
      rfl

theorem newTextBytes_of (f : LangBytes) (text : PyStr) (h : ModuleOf f text) : newTextBytes f = .ok (some text) := by
  obtain ⟨hs, h⟩ := h
  unfold newTextBytes
  rw [if_neg (fun h => hs ((skipped_special _).mp h))]
  revert h
  rintro ⟨sets, supp, out, ⟨data, members, b, data', h1, h2, h3, h4, h5, h6⟩, hg, rfl⟩
  obtain ⟨d, hd, rfl⟩ := generate_merge.mp hg
  have he : extractJson (.obj members) = .ok d := by rw [extractJson_lift h3, hd]; rfl
  rw [(readJson_iff _ _).mpr h1]
  simp only [bind, Except.bind, (requisite_some data _).mpr h2, he, h4, (readJson_iff _ _).mpr h5, mergeText_ok (mergeJson_of h6 d)]
  rfl

theorem newTextBytes_some (f : LangBytes) (hu : Usual f) (text : PyStr) : newTextBytes f = .ok (some text) ↔ ModuleOf f text := by
  refine ⟨?_, newTextBytes_of f text⟩
  unfold newTextBytes ModuleOf
  by_cases hs : SpecialName f.name
  · rw [if_pos ((skipped_special _).mpr hs)]
    intro h; cases h
  · rw [if_neg (fun h => hs ((skipped_special _).mp h))]
    · intro h
      refine ⟨hs, ?_⟩
      cases hr : readJson f.source with
      | error e => rw [hr] at h; cases h
      | ok data =>
        rw [hr] at h
        cases hq : requisiteData data with
        | error e => simp only [bind, Except.bind, hq] at h; cases h
        | ok o =>
          cases o with
          | none => simp only [bind, Except.bind, hq] at h; cases h
          | some v =>
            simp only [bind, Except.bind, hq] at h
            cases he : extractJson v with
            | error e => rw [he] at h; cases h
            | ok d =>
              rw [he] at h
              simp only at h
              obtain ⟨members, sets, rfl, hsets⟩ := extractJson_ok he
              rw [extractJson_lift hsets] at he
              have hd : extract sets = .ok d := by
                cases hx : extract sets with
                | error e => rw [hx] at he; cases he
                | ok d' => rw [hx] at he; injection he with he; rw [he]
              cases hf : f.supplementary with
              | none => rw [hf] at h; cases h
              | some b =>
                rw [hf] at h
                simp only at h
                cases hb : readJson b with
                | error e => rw [hb] at h; cases h
                | ok data' =>
                  rw [hb] at h
                  simp only at h
                  cases hm : mergeText d data' with
                  | error e => rw [hm] at h; cases h
                  | ok text' =>
                    rw [hm] at h
                    injection h with h; injection h with h
                    subst h
                    obtain ⟨out, hm, h⟩ := mergeText_usual (hu b data' hf ((readJson_iff _ _).mp hb)) hm
                    obtain ⟨supp, hsupp, rfl⟩ := mergeJson_ok hm
                    exact ⟨sets, supp, _, ⟨data, members, b, data', (readJson_iff _ _).mp hr, (requisite_some _ _).mp hq, hsets, hf,
                      (readJson_iff _ _).mp hb, hsupp⟩, generate_merge.mpr ⟨d, hd, rfl⟩, h⟩
/-- Data of the right shape is usual. -/
theorem usualData_of {data : Json} {supp : Supplementary} (h : SupplementaryOf data supp) : UsualData data := by
  obtain ⟨h1, ⟨v, h2, h2'⟩, h3⟩ := h
  refine ⟨?_, ?_, ?_⟩
  · intro t v hv
    obtain ⟨members, he, hn⟩ := h1 t
    have := entry_unique hv he
    subst this
    refine ⟨fun l h => (by cases h), fun s h => (by cases h), ?_⟩
    intro members' hm
    injection hm with hm
    subst hm
    clear he hv
    generalize theTable supp.tables t = tab at hn
    induction hn with
    | nil => intro e he; cases he
    | cons hx _ ih =>
      intro e he s hs
      rcases List.mem_cons.mp he with rfl | he
      · simp only at hs; subst hs; cases hx
      · exact ih e he s hs
  · intro l hl x hx
    have := entry_unique h2 hl
    subst this
    cases h2' with
    | list ts =>
      obtain ⟨s, _, rfl⟩ := List.mem_map.mp hx
      exact ⟨s, rfl⟩
  · intro v hv
    cases hs : supp.useLongScale with
    | some b => rw [hs] at h3; exact ⟨b, entry_unique hv h3⟩
    | none =>
      rw [hs] at h3
      have h4 := (jget_key _ _).mpr h3
      rw [(jget_ok _ _ _).mpr hv] at h4
      cases h4

theorem usual_of_holds {f : LangBytes} {sets : RuleSets} {supp : Supplementary} (h : Holds f sets supp) : Usual f := by
  obtain ⟨_, _, b, data, _, _, _, h4, h5, h6⟩ := h
  intro b' data' h4' h5'
  rw [h4] at h4'
  injection h4' with h4'
  subst h4'
  rw [jsonFile_unique h5' h5]
  exact usualData_of h6

/-- A test for `Usual` that can be computed -/
def usualCheck (f : LangBytes) : Bool :=
  match f.supplementary with
  | none => true
  | some b =>
    match readJson b with
    | .error _ => true
    | .ok data =>
      match mergeJson Tables.empty data with
      | .ok _ => true
      | .error _ => false

theorem usual_of_check {f : LangBytes} (h : usualCheck f = true) : Usual f := by
  intro b data hf hj
  unfold usualCheck at h
  rw [hf] at h
  simp only [(readJson_iff _ _).mpr hj] at h
  cases hm : mergeJson Tables.empty data with
  | error e => rw [hm] at h; cases h
  | ok out =>
    obtain ⟨supp, hs, _⟩ := mergeJson_ok hm
    exact usualData_of hs

theorem moduleOf_unique {f : LangBytes} {t t' : PyStr} (h : ModuleOf f t) (h' : ModuleOf f t') : t = t' := by
  have h1 := newTextBytes_of f t h
  rw [newTextBytes_of f t' h'] at h1
  injection h1 with h1; injection h1 with h1; exact h1.symm

theorem not_leftOut_module {f : LangBytes} {t : PyStr} (h : ModuleOf f t) : ¬ LeftOutBytes f := by
  intro h'
  have h1 := newTextBytes_of f t h
  rw [(newTextBytes_none f).mpr h'] at h1
  injection h1 with h1; cases h1

end NumberParser
