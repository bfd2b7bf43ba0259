import Verif.Proofs.Emit

/-! Reading a generated module gives the data back. -/

set_option linter.unusedSimpArgs false

namespace NumberParser.Gen

open NumberParser Spec

/-! ### Scanning -/

/-- The text consists of the given tokens. -/
def Scans (x : PyStr) (ts : List Tok) : Prop := ∀ T, x.foldl scanStep ⟨T, .idle⟩ = ⟨T ++ ts, .idle⟩

/-- The text consists of the given tokens if a comma or a line feed comes next. -/
def ScansD (x : PyStr) (ts : List Tok) : Prop :=
  ∀ T c, c = 10 ∨ c = 44 → scanStep (x.foldl scanStep ⟨T, .idle⟩) c = scanStep ⟨T ++ ts, .idle⟩ c

theorem Scans.delim {x : PyStr} {ts : List Tok} (h : Scans x ts) : ScansD x ts := by
  intro T c _
  rw [h T]

theorem Scans.nil : Scans [] [] := by intro T; simp

theorem Scans.append {x y : PyStr} {ts us : List Tok} (h : Scans x ts) (h' : Scans y us) : Scans (x ++ y) (ts ++ us) := by
  intro T
  rw [List.foldl_append, h T, h' (T ++ ts), List.append_assoc]

theorem Scans.appendD {x y : PyStr} {ts us : List Tok} (h : Scans x ts) (h' : ScansD y us) : ScansD (x ++ y) (ts ++ us) := by
  intro T c hc
  rw [List.foldl_append, h T, h' (T ++ ts) c hc, List.append_assoc]

theorem ScansD.cons {x y : PyStr} {ts us : List Tok} {c : Nat} (h : ScansD x ts) (hc : c = 10 ∨ c = 44) (h' : Scans (c :: y) us) :
    Scans (x ++ c :: y) (ts ++ us) := by
  intro T
  have h2 := h' (T ++ ts)
  rw [List.foldl_cons] at h2
  rw [List.foldl_append, List.foldl_cons, h T c hc, h2, List.append_assoc]

theorem ScansD.consD {x y : PyStr} {ts us : List Tok} {c : Nat} (h : ScansD x ts) (hc : c = 10 ∨ c = 44) (h' : ScansD (c :: y) us) :
    ScansD (x ++ c :: y) (ts ++ us) := by
  intro T d hd
  have h2 := h' (T ++ ts) d hd
  rw [List.foldl_cons] at h2
  rw [List.foldl_append, List.foldl_cons, h T c hc, h2, List.append_assoc]

theorem scans_spaces (k : Nat) : Scans (List.replicate k 32) [] := by
  intro T
  induction k with
  | zero => simp
  | succ k ih => rw [List.replicate_succ, List.foldl_cons]; exact ih

theorem scans_nl (k : Nat) : Scans (nl k) [] := fun T => scans_spaces k T

theorem scans_sep (k : Nat) : Scans (44 :: nl k) [.comma] := by
  intro T
  rw [List.foldl_cons]
  have h := scans_nl k (T ++ [.comma])
  rw [List.append_nil] at h
  exact h

theorem scans_char (T : List Tok) (t : PyStr) (c : Nat) : (jsonChar c).foldl scanStep ⟨T, .str t⟩ = ⟨T, .str (t ++ [c])⟩ := by
  by_cases h : c < 32
  · have : ∀ c, c < 32 → ∀ T t, (jsonChar c).foldl scanStep ⟨T, .str t⟩ = ⟨T, .str (t ++ [c])⟩ := by
      intro c hc T t
      have hc' : c ∈ List.range 32 := List.mem_range.mpr hc
      simp only [List.range, List.range.loop, List.mem_cons, List.not_mem_nil, or_false] at hc'
      rcases hc' with rfl | rfl | rfl | rfl | rfl | rfl | rfl | rfl | rfl | rfl | rfl | rfl | rfl | rfl | rfl | rfl | rfl | rfl | rfl | rfl | rfl | rfl | rfl | rfl | rfl | rfl | rfl | rfl | rfl | rfl | rfl | rfl <;> rfl
    exact this c h T t
  · by_cases h1 : c = 34 ∨ c = 92
    · rw [jsonChar_special h1]
      rcases h1 with rfl | rfl <;> rfl
    · rw [not_or] at h1
      rw [jsonChar_plain (by omega) h1.1 h1.2]
      simp only [List.foldl_cons, List.foldl_nil, scanStep]
      rw [if_neg h1.1, if_neg h1.2, if_neg (by omega)]

theorem scans_str (w : PyStr) : Scans (jsonStr w) [.str w] := by
  intro T
  have : ∀ (w t : PyStr), (w.flatMap jsonChar).foldl scanStep ⟨T, .str t⟩ = ⟨T, .str (t ++ w)⟩ := by
    intro w
    induction w with
    | nil => intro t; simp
    | cons c w ih =>
      intro t
      rw [List.flatMap_cons, List.foldl_append, scans_char, ih]
      simp
  unfold jsonStr
  rw [List.cons_append, List.foldl_cons, List.foldl_append]
  show [34].foldl scanStep ((w.flatMap jsonChar).foldl scanStep ⟨T, .str []⟩) = _
  rw [this]
  rfl

theorem scans_digits (neg : Bool) (m : Nat) (T : List Tok) (s : Scan)
    (h0 : ∀ d, d < 10 → scanStep s (48 + d) = ⟨T, .num neg d⟩) : (decDigits m).foldl scanStep s = ⟨T, .num neg m⟩ := by
  induction m using Nat.strongRecOn with
  | _ m ih =>
    by_cases h : m < 10
    · rw [decDigits_lt h]
      exact h0 m h
    · rw [decDigits_ge (by omega), List.foldl_append, ih (m / 10) (by omega)]
      simp only [List.foldl_cons, List.foldl_nil, scanStep]
      rw [if_pos (by omega)]
      congr 2
      omega

theorem scans_int (n : Int) : ScansD (reprInt n) [.int n] := by
  intro T c hc
  have key : ∀ neg m, scanStep ⟨T, .num neg m⟩ c = scanStep ⟨T ++ [.int (if neg then -(m : Int) else (m : Int))], .idle⟩ c := by
    intro neg m
    simp only [scanStep]
    rw [if_neg (by omega)]
  unfold reprInt
  split
  · rename_i hn
    rw [List.foldl_cons]
    rw [scans_digits true (-n).toNat T]
    · rw [key]
      congr 5
      simp only [if_true]
      omega
    · intro d hd
      show scanStep ⟨T, .minus⟩ (48 + d) = _
      simp only [scanStep]
      rw [if_pos (by omega)]
      congr 2
      omega
  · rename_i hn
    rw [scans_digits false n.toNat T]
    · rw [key]
      congr 5
      simp only [Bool.false_eq_true, if_false]
      omega
    · intro d hd
      show scanIdle T (48 + d) = _
      unfold scanIdle
      rw [if_neg (by omega), if_neg (by omega), if_neg (by omega), if_neg (by omega), if_neg (by omega), if_neg (by omega), if_neg (by omega),
        if_neg (by omega), if_neg (by omega), if_pos (by omega)]
      congr 2
      omega

theorem scans_bool (b : Bool) : ScansD (pyBool b) [.name (pyBool b)] := by
  intro T c hc
  cases b <;> rcases hc with rfl | rfl <;> rfl

/-- Token lists with commas between. -/
def commas : List (List Tok) → List Tok
  | [] => []
  | [a] => a
  | a :: b :: rest => a ++ [.comma] ++ commas (b :: rest)

theorem scans_join {α : Type} (k : Nat) (f : α → PyStr) (g : α → List Tok) (l : List α) (h : ∀ e ∈ l, ScansD (f e) (g e)) :
    ScansD (join (u!"," ++ nl k) (l.map f)) (commas (l.map g)) := by
  induction l with
  | nil => exact Scans.nil.delim
  | cons e l ih =>
    have ih := ih (fun y hy => h y (List.mem_cons_of_mem _ hy))
    have he := h e List.mem_cons_self
    cases l with
    | nil => exact he
    | cons e' l =>
      have h1 : ScansD ((44 :: nl k) ++ join (u!"," ++ nl k) ((e' :: l).map f)) ([.comma] ++ commas ((e' :: l).map g)) :=
        (scans_sep k).appendD ih
      have h2 := he.consD (.inr rfl) h1
      simpa [join, commas, List.append_assoc] using h2

theorem scans_brackets {o c : Nat} {to tc : Tok} (ho : Scans [o] [to]) (hc : Scans [c] [tc]) {s : PyStr} {ts : List Tok} (hs : ScansD s ts)
    (k k' : Nat) : Scans ([o] ++ nl k ++ s ++ nl k' ++ [c]) (to :: ts ++ [tc]) := by
  have h1 : ScansD ([o] ++ nl k ++ s) ([to] ++ [] ++ ts) := (ho.append (scans_nl k)).appendD hs
  have h2 : Scans (nl k' ++ [c]) ([] ++ [tc]) := (scans_nl k').append hc
  have h3 := ScansD.cons h1 (.inl rfl) h2
  simpa [List.append_assoc, nl] using h3

/-- The tokens of an item -/
def itemToks (e : PyStr × Int) : List Tok := [.str e.1, .colon, .int e.2]

theorem scans_item (e : PyStr × Int) : ScansD (jsonItem e) (itemToks e) := by
  have h1 : Scans (jsonStr e.1 ++ u!": ") [.str e.1, .colon] := (scans_str e.1).append (us := [.colon]) (fun T => rfl)
  exact h1.appendD (scans_int e.2)

theorem scans_table (t : Table Int) : Scans (jsonTable t) (.lbrace :: commas (t.map itemToks) ++ [.rbrace]) := by
  unfold jsonTable
  split
  · rename_i h
    rw [List.isEmpty_iff] at h
    subst h
    intro T
    simp [scanStep, scanIdle, commas]
  · exact scans_brackets (fun T => rfl) (fun T => rfl) (scans_join 8 jsonItem itemToks t (fun e _ => scans_item e)) 8 4

theorem scans_list (l : List PyStr) : Scans (jsonList l) (.lbrack :: commas (l.map (fun w => [.str w])) ++ [.rbrack]) := by
  unfold jsonList
  split
  · rename_i h
    rw [List.isEmpty_iff] at h
    subst h
    intro T
    simp [scanStep, scanIdle, commas]
  · exact scans_brackets (fun T => rfl) (fun T => rfl) (scans_join 8 jsonStr _ l (fun e _ => (scans_str e).delim)) 8 4

/-- The tokens of a value -/
def valToks : Val → List Tok
  | .table t => .lbrace :: commas (t.map itemToks) ++ [.rbrace]
  | .list l => .lbrack :: commas (l.map (fun w => [.str w])) ++ [.rbrack]
  | .flag b => [.name (pyBool b)]

theorem scans_val (v : Val) : ScansD (valText pyBool v) (valToks v) := by
  cases v with
  | table t => exact (scans_table t).delim
  | list l => exact (scans_list l).delim
  | flag b => exact scans_bool b

/-- The tokens of an entry -/
def entryToks (e : PyStr × Val) : List Tok := .str e.1 :: .colon :: valToks e.2

theorem scans_entry (e : PyStr × Val) : ScansD (jsonStr e.1 ++ u!": " ++ valText pyBool e.2) (entryToks e) := by
  have h1 : Scans (jsonStr e.1 ++ u!": ") [.str e.1, .colon] := (scans_str e.1).append (us := [.colon]) (fun T => rfl)
  exact h1.appendD (scans_val e.2)

theorem scans_body (d : Table Val) : Scans (bodyText pyBool d ++ u!"}" ++ u!"\n") (.lbrace :: commas (d.map entryToks) ++ [.rbrace]) := by
  have h := scans_brackets (o := 123) (c := 125) (to := .lbrace) (tc := .rbrace) (fun T => rfl) (fun T => rfl)
    (scans_join 4 (fun e : PyStr × Val => jsonStr e.1 ++ u!": " ++ valText pyBool e.2) entryToks d (fun e _ => scans_entry e)) 4 0
  have h2 := h.append (scans_nl 0)
  simpa [bodyText, nl] using h2

/-! ### Reading -/

theorem readTable_commas (t : Table Int) (r : List Tok) : readTable (commas (t.map itemToks) ++ .rbrace :: r) = some (t, r) := by
  induction t with
  | nil => simp [commas, readTable]
  | cons e t ih =>
    cases t with
    | nil => simp [commas, itemToks, readTable]
    | cons e' t =>
      have : commas ((e :: e' :: t).map itemToks) ++ .rbrace :: r
          = .str e.1 :: .colon :: .int e.2 :: .comma :: (commas ((e' :: t).map itemToks) ++ .rbrace :: r) := by
        simp [commas, itemToks]
      rw [this, readTable, ih]
      rfl

theorem readList_commas (l : List PyStr) (r : List Tok) : readList (commas (l.map (fun w => [.str w])) ++ .rbrack :: r) = some (l, r) := by
  induction l with
  | nil => simp [commas, readList]
  | cons e t ih =>
    cases t with
    | nil => simp [commas, readList]
    | cons e' t =>
      have : commas ((e :: e' :: t).map (fun w => [.str w])) ++ .rbrack :: r
          = .str e :: .comma :: (commas ((e' :: t).map (fun w => [.str w])) ++ .rbrack :: r) := by
        simp [commas]
      rw [this, readList, ih]
      rfl

theorem ofItems_nodup {α : Type} {l : Table α} (h : (Table.keys l).Nodup) : ofItems l = l := by
  have := Table.foldl_set_append (fun a : α => a) l [] (by simpa [Table.keys] using h)
  simpa [ofItems] using this

/-- The keys of the tables are distinct. -/
def NodupVal : Val → Prop
  | .table t => (Table.keys t).Nodup
  | _ => True

theorem readVal_toks {v : Val} (h : NodupVal v) (r : List Tok) : readVal (valToks v ++ r) = some (v, r) := by
  cases v with
  | table t =>
    have := readTable_commas t r
    simp [valToks, readVal, this, ofItems_nodup (l := t) h]
  | list l =>
    have := readList_commas l r
    simp [valToks, readVal, this]
  | flag b => cases b <;> simp [valToks, readVal, pyBool]

theorem readItems_commas {d : Table Val} (h : ∀ e ∈ d, NodupVal e.2) (r : List Tok) (fuel : Nat) (hf : d.length < fuel) :
    readItems fuel (commas (d.map entryToks) ++ .rbrace :: r) = some (d, r) := by
  induction d generalizing fuel with
  | nil =>
    cases fuel with
    | zero => simp at hf
    | succ f => simp [commas, readItems]
  | cons e d ih =>
    obtain ⟨k, v⟩ := e
    have hv : NodupVal v := h (k, v) List.mem_cons_self
    cases fuel with
    | zero => simp at hf
    | succ f =>
      cases d with
      | nil =>
        have : commas ([(k, v)].map entryToks) ++ .rbrace :: r = .str k :: .colon :: (valToks v ++ .rbrace :: r) := by
          simp [commas, entryToks]
        rw [this]
        simp only [readItems, readVal_toks hv]
      | cons e' d =>
        have : commas (((k, v) :: e' :: d).map entryToks) ++ .rbrace :: r
            = .str k :: .colon :: (valToks v ++ .comma :: (commas ((e' :: d).map entryToks) ++ .rbrace :: r)) := by
          simp [commas, entryToks]
        rw [this]
        have ih := ih (fun e he => h e (List.mem_cons_of_mem _ he)) f (by simp at hf ⊢; omega)
        simp only [readItems, readVal_toks hv, ih, Option.map_some]

theorem commas_length (d : Table Val) : d.length ≤ (commas (d.map entryToks)).length := by
  induction d with
  | nil => simp
  | cons e d ih =>
    cases d with
    | nil => simp [commas, entryToks]
    | cons e' d =>
      have : commas ((e :: e' :: d).map entryToks) = entryToks e ++ [.comma] ++ commas ((e' :: d).map entryToks) := rfl
      rw [this]
      simp only [List.length_append, List.length_cons] at ih ⊢
      omega

theorem importText_emit {o : Output} (hc : CleanOutput o) (hn : ∀ e ∈ o.entries, NodupVal e.2) : importText (emit o) = some o.entries := by
  rw [emit_eq o hc]
  have hk : (Table.keys o.entries).Nodup := by
    unfold Output.entries Table.keys
    cases o.useLongScale <;> simp
  generalize o.entries = d at hn hk
  unfold importText
  rw [List.append_assoc]
  rw [if_pos (by simp), List.drop_left]
  have hs : scan (bodyText pyBool d ++ u!"}" ++ u!"\n") = some (.lbrace :: commas (d.map entryToks) ++ [.rbrace]) := by
    unfold scan
    simp only
    rw [scans_body d []]
    simp
  rw [hs]
  simp only [List.cons_append]
  have hl := commas_length d
  rw [readItems_commas hn [] _ (by simp; omega)]
  simp only
  rw [ofItems_nodup hk]

end NumberParser.Gen
