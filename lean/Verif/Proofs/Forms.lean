import Verif.Proofs.RoundTrip
import Verif.Proofs.Words
import Verif.Spec.Sentence

/-! Words of the same class and value (`Lang.Form`). -/

namespace NumberParser
open Spec

def kindOfClass : Class → Nat → Kind
  | .unit, v => .unit v
  | .direct, v => .direct v
  | .tens, v => .tens v
  | .hundreds, v => .hund v
  | .scale, v => .big v

theorem kindOf_class {l : PyStr} (h : l ∈ supported) {k : Class} {v : Nat} {f : PyStr} (hf : FormOf l k v f) :
    kindOf (mkLangData (file l)) f = kindOfClass k v := by
  rw [kindOf_word h hf]; cases k <;> rfl

theorem classified_kinds {l : PyStr} (hl : l ∈ supported) {ws : List PyStr} {cs : List (Class × Nat)} (h : Classified l ws cs) :
    wordKinds (mkLangData (file l)) ws = cs.map (fun c => kindOfClass c.1 c.2) ∧
      ∀ w ∈ ws, (mkLangData (file l)).allNumbers.mem (norm w) = true := by
  induction h with
  | nil => exact ⟨rfl, by simp⟩
  | @cons w k v ws cs hw _ ih =>
    refine ⟨?_, ?_⟩
    · unfold wordKinds at *
      rw [List.map_cons, List.map_cons, ih.1]
      congr 1
      exact kindOf_class hl hw
    · intro x hx
      rcases List.mem_cons.mp hx with rfl | hx
      · exact (allNumbers_iff hl _).mpr ⟨k, v, hw⟩
      · exact ih.2 x hx

/-- Number words have a class and a value. -/
theorem classified_of {l : PyStr} {ws : List PyStr} (h : ∀ w ∈ ws, Cardinal l w) : ∃ cs, Classified l ws cs := by
  induction ws with
  | nil => exact ⟨[], .nil⟩
  | cons w ws ih =>
    obtain ⟨k, v, hw⟩ := h w (by simp)
    obtain ⟨cs, hcs⟩ := ih (fun x hx => h x (by simp [hx]))
    exact ⟨_, .cons hw hcs⟩

theorem kindOfClass_inj {k k' : Class} {v v' : Nat} (h : kindOfClass k v = kindOfClass k' v') : k = k' ∧ v = v' := by
  cases k <;> cases k' <;> simp_all [kindOfClass]

/-- Number words with the same kinds have the same classes and values. -/
theorem classified_same {l : PyStr} (hl : l ∈ supported) {ws ws' : List PyStr} {cs cs' : List (Class × Nat)}
    (h : Classified l ws cs) (h' : Classified l ws' cs')
    (he : wordKinds (mkLangData (file l)) ws = wordKinds (mkLangData (file l)) ws') : cs = cs' := by
  rw [(classified_kinds hl h).1, (classified_kinds hl h').1] at he
  clear h h'
  induction cs generalizing cs' with
  | nil => cases cs' with
    | nil => rfl
    | cons _ _ => cases he
  | cons c cs ih => cases cs' with
    | nil => cases he
    | cons c' cs' =>
      rw [List.map_cons, List.map_cons] at he
      injection he with h1 h2
      obtain ⟨e1, e2⟩ := kindOfClass_inj h1
      rw [ih h2]
      cases c; cases c'; simp_all

theorem form_of {L : Lang} (hl : L.code ∈ supported) {n : Nat} {ws : List PyStr}
    (h : ∀ w ∈ L.words n, (mkLangData (file L.code)).allNumbers.mem (norm w) = true)
    (h' : ∀ w ∈ ws, (mkLangData (file L.code)).allNumbers.mem (norm w) = true)
    (he : wordKinds (mkLangData (file L.code)) (L.words n) = wordKinds (mkLangData (file L.code)) ws) : L.Form n ws := by
  obtain ⟨cs, hcs⟩ := classified_of (fun w hw => (cardinal_iff hl w).mpr (h w hw))
  obtain ⟨cs', hcs'⟩ := classified_of (fun w hw => (cardinal_iff hl w).mpr (h' w hw))
  have := classified_same hl hcs hcs' he
  subst this
  exact ⟨cs, hcs, hcs'⟩

theorem form_kinds {L : Lang} (hl : L.code ∈ supported) {n : Nat} {ws : List PyStr} (h : L.Form n ws) :
    wordKinds (mkLangData (file L.code)) ws = wordKinds (mkLangData (file L.code)) (L.words n) ∧
      ∀ w ∈ ws, (mkLangData (file L.code)).allNumbers.mem (norm w) = true := by
  obtain ⟨cs, h1, h2⟩ := h
  obtain ⟨e1, _⟩ := classified_kinds hl h1
  obtain ⟨e2, e3⟩ := classified_kinds hl h2
  exact ⟨e2.trans e1.symm, e3⟩

end NumberParser
