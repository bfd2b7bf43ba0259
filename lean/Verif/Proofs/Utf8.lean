import Verif.Spec.Utf8

/-! # UTF-8 -/

namespace NumberParser

open Gen Spec

theorem isScalar_iff {c : Nat} : isScalar c = true ↔ c < 0xD800 ∨ (0xE000 ≤ c ∧ c < 0x110000) := by
  unfold isScalar; rw [Bool.or_eq_true, decide_eq_true_iff, decide_eq_true_iff]

theorem isCont_iff {c : Nat} : isCont c = true ↔ 0x80 ≤ c ∧ c < 0xC0 := by
  unfold isCont; rw [decide_eq_true_iff]

theorem utf8Char_iff {c : Nat} {b : Bytes} : Utf8Char c b ↔ isScalar c = true ∧ b = utf8Char c := by
  constructor
  · intro h
    cases h with
    | one h => exact ⟨isScalar_iff.mpr (.inl (by omega)), by unfold utf8Char; rw [if_pos h]⟩
    | @two a b h1 h2 h3 =>
      refine ⟨isScalar_iff.mpr (.inl (by omega)), ?_⟩
      unfold utf8Char
      rw [if_neg (by omega), if_pos (by omega), show (a * 64 + b) / 64 = a by omega, show (a * 64 + b) % 64 = b by omega]
    | @three a b c h1 h2 h3 h4 h5 =>
      refine ⟨isScalar_iff.mpr (by omega), ?_⟩
      unfold utf8Char
      rw [if_neg (by omega), if_neg (by omega), if_pos (by omega), show ((a * 64 + b) * 64 + c) / 4096 = a by omega,
        show ((a * 64 + b) * 64 + c) / 64 % 64 = b by omega, show ((a * 64 + b) * 64 + c) % 64 = c by omega]
    | @four a b c d h1 h2 h3 h4 h5 h6 =>
      refine ⟨isScalar_iff.mpr (by omega), ?_⟩
      unfold utf8Char
      rw [if_neg (by omega), if_neg (by omega), if_neg (by omega), show (((a * 64 + b) * 64 + c) * 64 + d) / 262144 = a by omega,
        show (((a * 64 + b) * 64 + c) * 64 + d) / 4096 % 64 = b by omega, show (((a * 64 + b) * 64 + c) * 64 + d) / 64 % 64 = c by omega,
        show (((a * 64 + b) * 64 + c) * 64 + d) % 64 = d by omega]
  · rintro ⟨h, rfl⟩
    rw [isScalar_iff] at h
    unfold utf8Char
    split
    · exact .one (by assumption)
    split
    · have := Utf8Char.two (a := c / 64) (b := c % 64) (by omega) (by omega) (by omega)
      rw [show c / 64 * 64 + c % 64 = c by omega] at this
      exact this
    split
    · have := Utf8Char.three (a := c / 4096) (b := c / 64 % 64) (c := c % 64) (by omega) (by omega) (by omega) (by omega) (by omega)
      rw [show (c / 4096 * 64 + c / 64 % 64) * 64 + c % 64 = c by omega] at this
      exact this
    · have := Utf8Char.four (a := c / 262144) (b := c / 4096 % 64) (c := c / 64 % 64) (d := c % 64) (by omega) (by omega) (by omega) (by omega) (by omega) (by omega)
      rw [show ((c / 262144 * 64 + c / 4096 % 64) * 64 + c / 64 % 64) * 64 + c % 64 = c by omega] at this
      exact this

theorem utf8Encode_iff (s : PyStr) (bs : Bytes) : utf8Encode s = some bs ↔ Utf8 s bs := by
  unfold utf8Encode
  constructor
  · intro h
    split at h
    · rename_i hs
      injection h with h; subst h
      induction s with
      | nil => exact .nil
      | cons c s ih =>
        rw [List.all_cons, Bool.and_eq_true] at hs
        rw [List.flatMap_cons]
        exact .cons (utf8Char_iff.mpr ⟨hs.1, rfl⟩) (ih hs.2)
    · cases h
  · intro h
    have : s.all isScalar = true ∧ bs = s.flatMap utf8Char := by
      induction h with
      | nil => exact ⟨rfl, rfl⟩
      | cons hc _ ih =>
        obtain ⟨h1, rfl⟩ := utf8Char_iff.mp hc
        rw [List.all_cons, List.flatMap_cons, h1, ih.1, ← ih.2]
        exact ⟨rfl, rfl⟩
    rw [if_pos this.1, this.2]

theorem consOpt_some {c : Nat} {x : Option PyStr} {s : PyStr} (h : consOpt c x = some s) : ∃ s', x = some s' ∧ s = c :: s' := by
  cases x with
  | none => cases h
  | some s' => injection h with h; exact ⟨s', rfl, h.symm⟩

theorem utf8Decode_complete {s : PyStr} {bs : Bytes} (h : Utf8 s bs) : utf8Decode bs = some s := by
  induction h with
  | nil => rfl
  | @cons c b s bs hc _ ih =>
    cases hc with
    | one h =>
      show utf8Decode (c :: bs) = _
      rw [utf8Decode.eq_def]
      simp only [if_pos h, ih, consOpt]
    | @two a b h1 h2 h3 =>
      show utf8Decode ((0b11000000 + a) :: (0b10000000 + b) :: bs) = _
      rw [utf8Decode.eq_def]
      have c1 : isCont (0b10000000 + b) = true := isCont_iff.mpr (by omega)
      simp only [if_neg (show ¬ 0b11000000 + a < 0x80 by omega), if_neg (show ¬ 0b11000000 + a < 0xC2 by omega),
        if_pos (show 0b11000000 + a < 0xE0 by omega), c1, if_true, ih, consOpt]
      have ev : (0b11000000 + a - 0xC0) * 64 + (0b10000000 + b - 0x80) = a * 64 + b := by omega
      rw [ev]
    | @three a b c h1 h2 h3 h4 h5 =>
      show utf8Decode ((0b11100000 + a) :: (0b10000000 + b) :: (0b10000000 + c) :: bs) = _
      rw [utf8Decode.eq_def]
      have c1 : isCont (0b10000000 + b) = true := isCont_iff.mpr (by omega)
      have c2 : isCont (0b10000000 + c) = true := isCont_iff.mpr (by omega)
      have ev : (0b11100000 + a - 0xE0) * 4096 + (0b10000000 + b - 0x80) * 64 + (0b10000000 + c - 0x80) = (a * 64 + b) * 64 + c := by omega
      have c3 : isScalar ((a * 64 + b) * 64 + c) = true := isScalar_iff.mpr (by omega)
      have c4 : decide (0x800 ≤ (a * 64 + b) * 64 + c) = true := decide_eq_true h4
      simp only [if_neg (show ¬ 0b11100000 + a < 0x80 by omega), if_neg (show ¬ 0b11100000 + a < 0xC2 by omega),
        if_neg (show ¬ 0b11100000 + a < 0xE0 by omega), if_pos (show 0b11100000 + a < 0xF0 by omega), ev, c1, c2, c3, c4, Bool.and_self, if_true, ih, consOpt]
    | @four a b c d h1 h2 h3 h4 h5 h6 =>
      show utf8Decode ((0b11110000 + a) :: (0b10000000 + b) :: (0b10000000 + c) :: (0b10000000 + d) :: bs) = _
      rw [utf8Decode.eq_def]
      have c1 : isCont (0b10000000 + b) = true := isCont_iff.mpr (by omega)
      have c2 : isCont (0b10000000 + c) = true := isCont_iff.mpr (by omega)
      have c2' : isCont (0b10000000 + d) = true := isCont_iff.mpr (by omega)
      have ev : (0b11110000 + a - 0xF0) * 262144 + (0b10000000 + b - 0x80) * 4096 + (0b10000000 + c - 0x80) * 64 + (0b10000000 + d - 0x80) =
        ((a * 64 + b) * 64 + c) * 64 + d := by omega
      have c3 : isScalar (((a * 64 + b) * 64 + c) * 64 + d) = true := isScalar_iff.mpr (by omega)
      have c4 : decide (0x10000 ≤ ((a * 64 + b) * 64 + c) * 64 + d) = true := decide_eq_true h5
      simp only [if_neg (show ¬ 0b11110000 + a < 0x80 by omega), if_neg (show ¬ 0b11110000 + a < 0xC2 by omega),
        if_neg (show ¬ 0b11110000 + a < 0xE0 by omega), if_neg (show ¬ 0b11110000 + a < 0xF0 by omega), if_pos (show 0b11110000 + a < 0xF5 by omega),
        ev, c1, c2, c2', c3, c4, Bool.and_self, if_true, ih, consOpt]

theorem utf8Decode_sound : ∀ (n : Nat) (bs : Bytes), bs.length ≤ n → ∀ s, utf8Decode bs = some s → Utf8 s bs := by
  intro n
  induction n with
  | zero =>
    intro bs hb s h
    cases bs with
    | nil => injection h with h; subst h; exact .nil
    | cons => simp at hb
  | succ n ih =>
    intro bs hb s h
    cases bs with
    | nil => injection h with h; subst h; exact .nil
    | cons a r =>
      have hb : r.length ≤ n := by simpa using hb
      rw [utf8Decode.eq_def] at h
      simp only at h
      split at h
      · rename_i ha
        obtain ⟨s', h1, rfl⟩ := consOpt_some h
        exact .cons (b := [a]) (.one ha) (ih _ hb _ h1)
      split at h
      · cases h
      split at h
      · rename_i h1 h2 h3
        cases r with
        | nil => cases h
        | cons b r =>
          simp only at h
          split at h
          · rename_i hc
            rw [isCont_iff] at hc
            obtain ⟨s', h1, rfl⟩ := consOpt_some h
            have := Utf8Char.two (a := a - 0xC0) (b := b - 0x80) (by omega) (by omega) (by omega)
            rw [show 0b11000000 + (a - 0xC0) = a by omega, show 0b10000000 + (b - 0x80) = b by omega] at this
            exact .cons this (ih r (by simp at hb; omega) _ h1)
          · cases h
      split at h
      · rename_i h1 h2 h3 h4
        match r, hb, h with
        | b :: c :: r, hb, h =>
          simp only at h
          split at h
          · rename_i hc
            simp only [Bool.and_eq_true, isCont_iff, isScalar_iff, decide_eq_true_iff] at hc
            obtain ⟨s', h1, rfl⟩ := consOpt_some h
            have := Utf8Char.three (a := a - 0xE0) (b := b - 0x80) (c := c - 0x80) (by omega) (by omega) (by omega) (by omega) (by omega)
            rw [show 0b11100000 + (a - 0xE0) = a by omega, show 0b10000000 + (b - 0x80) = b by omega,
              show 0b10000000 + (c - 0x80) = c by omega,
              show ((a - 0xE0) * 64 + (b - 0x80)) * 64 + (c - 0x80) = (a - 0xE0) * 4096 + (b - 0x80) * 64 + (c - 0x80) by omega] at this
            exact .cons this (ih r (by simp at hb; omega) _ h1)
          · cases h
        | [b], _, h => cases h
        | [], _, h => cases h
      split at h
      · rename_i h1 h2 h3 h4 h5
        match r, hb, h with
        | b :: c :: d :: r, hb, h =>
          simp only at h
          split at h
          · rename_i hc
            simp only [Bool.and_eq_true, isCont_iff, isScalar_iff, decide_eq_true_iff] at hc
            obtain ⟨s', h1, rfl⟩ := consOpt_some h
            have := Utf8Char.four (a := a - 0xF0) (b := b - 0x80) (c := c - 0x80) (d := d - 0x80) (by omega) (by omega) (by omega) (by omega) (by omega) (by omega)
            rw [show 0b11110000 + (a - 0xF0) = a by omega, show 0b10000000 + (b - 0x80) = b by omega,
              show 0b10000000 + (c - 0x80) = c by omega, show 0b10000000 + (d - 0x80) = d by omega,
              show (((a - 0xF0) * 64 + (b - 0x80)) * 64 + (c - 0x80)) * 64 + (d - 0x80) =
                (a - 0xF0) * 262144 + (b - 0x80) * 4096 + (c - 0x80) * 64 + (d - 0x80) by omega] at this
            exact .cons this (ih r (by simp at hb; omega) _ h1)
          · cases h
        | [b, c], _, h => cases h
        | [b], _, h => cases h
        | [], _, h => cases h
      · cases h

theorem utf8Decode_iff (bs : Bytes) (s : PyStr) : utf8Decode bs = some s ↔ Utf8 s bs :=
  ⟨utf8Decode_sound _ _ (Nat.le_refl _) _, utf8Decode_complete⟩

end NumberParser
