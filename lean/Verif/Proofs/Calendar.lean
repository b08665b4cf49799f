import Verif.Proofs.Dec
import Verif.Model.Utils
/-! The model's calendar arithmetic agrees with the calendar of `Spec/Text.lean`. -/

set_option linter.unusedSimpArgs false

namespace Verif
open Spec

theorem daysIn_le (y m : Nat) : daysIn y m ≤ 31 := by
  unfold daysIn; repeat' split
  all_goals omega

theorem isLeap_iff (y : Nat) : isLeap y = true ↔ leapYear y := by
  simp only [isLeap, leapYear, Bool.or_eq_true, Bool.and_eq_true, beq_iff_eq, bne_iff_ne, ne_eq]
  omega

theorem daysBeforeYear_succ (y : Nat) (h : 1 ≤ y) : daysBeforeYear (y + 1) = daysBeforeYear y + yearDays y := by
  have hl := isLeap_iff y
  unfold leapYear at hl
  obtain ⟨k, rfl⟩ : ∃ k, y = k + 1 := ⟨y - 1, by omega⟩
  unfold daysBeforeYear yearDays
  have h4 : (k + 1) / 4 = k / 4 + if (k + 1) % 4 = 0 then 1 else 0 := by split <;> omega
  have h100 : (k + 1) / 100 = k / 100 + if (k + 1) % 100 = 0 then 1 else 0 := by split <;> omega
  have h400 : (k + 1) / 400 = k / 400 + if (k + 1) % 400 = 0 then 1 else 0 := by split <;> omega
  have m1 : (k + 1) % 100 = 0 → (k + 1) % 4 = 0 := by omega
  have m2 : (k + 1) % 400 = 0 → (k + 1) % 100 = 0 := by omega
  have b1 : k / 100 ≤ k / 4 := by omega
  simp only [Nat.add_sub_cancel]
  rw [h4, h100, h400]
  clear h4 h100 h400
  generalize k / 4 = a at *
  generalize k / 100 = b at *
  generalize k / 400 = d at *
  by_cases c : isLeap (k + 1) = true
  · rw [if_pos c]
    obtain ⟨c1, c2⟩ := hl.mp c
    rcases c2 with c2 | c2
    · rw [if_pos c1, if_neg c2, if_neg (fun h => c2 (m2 h))]; omega
    · rw [if_pos c1, if_pos (m2 c2), if_pos c2]; omega
  · rw [if_neg c]
    have c' : ¬ ((k + 1) % 4 = 0 ∧ ((k + 1) % 100 ≠ 0 ∨ (k + 1) % 400 = 0)) := fun h => c (hl.mpr h)
    by_cases c1 : (k + 1) % 4 = 0
    · have c2 : (k + 1) % 100 = 0 := Decidable.byContradiction fun h => c' ⟨c1, Or.inl h⟩
      have c3 : ¬ (k + 1) % 400 = 0 := fun h => c' ⟨c1, Or.inr h⟩
      rw [if_pos c1, if_pos c2, if_neg c3]; omega
    · have c2 : ¬ (k + 1) % 100 = 0 := fun h => c1 (m1 h)
      rw [if_neg c1, if_neg c2, if_neg (fun h => c2 (m2 h))]; omega

theorem yearDays_pos (y : Nat) : 365 ≤ yearDays y ∧ yearDays y ≤ 366 := by
  unfold yearDays; split <;> omega

theorem splitYear_spec (fuel y days : Nat) (hy : 1 ≤ y) (hf : days ≤ fuel) :
    y ≤ (splitYear fuel y days).1 ∧
    daysBeforeYear (splitYear fuel y days).1 + (splitYear fuel y days).2 = daysBeforeYear y + days ∧
    (splitYear fuel y days).2 < yearDays (splitYear fuel y days).1 := by
  induction fuel generalizing y days with
  | zero => have := yearDays_pos y; exact ⟨Nat.le_refl _, rfl, by simp only [splitYear]; omega⟩
  | succ fuel ih =>
    rw [splitYear]
    split
    · rename_i h; exact ⟨Nat.le_refl _, rfl, h⟩
    · rename_i h
      have := yearDays_pos y
      have := ih (y + 1) (days - yearDays y) (by omega) (by omega)
      have e := daysBeforeYear_succ y hy
      refine ⟨by omega, by omega, this.2.2⟩

theorem monthDays_eq (y m : Nat) : monthDays y m = daysIn y m := by
  unfold monthDays daysIn
  by_cases h2 : m = 2
  · simp only [h2, if_true]
    by_cases c : isLeap y = true
    · rw [if_pos c, if_pos ((isLeap_iff y).mp c)]
    · rw [if_neg c, if_neg (fun h => c ((isLeap_iff y).mpr h))]
  · simp [h2]

/-- day of the year on which month `m` begins -/
def monthStart (y m : Nat) : Nat := daysBeforeMonth m + (if m > 2 ∧ leapYear y then 1 else 0)

theorem monthStart_succ (y m : Nat) (h1 : 1 ≤ m) (h2 : m ≤ 11) : monthStart y (m + 1) = monthStart y m + daysIn y m := by
  have : m = 1 ∨ m = 2 ∨ m = 3 ∨ m = 4 ∨ m = 5 ∨ m = 6 ∨ m = 7 ∨ m = 8 ∨ m = 9 ∨ m = 10 ∨ m = 11 := by omega
  by_cases c : leapYear y
  · rcases this with rfl | rfl | rfl | rfl | rfl | rfl | rfl | rfl | rfl | rfl | rfl <;>
      simp [monthStart, daysIn, daysBeforeMonth, c]
  · rcases this with rfl | rfl | rfl | rfl | rfl | rfl | rfl | rfl | rfl | rfl | rfl <;>
      simp [monthStart, daysIn, daysBeforeMonth, c]

theorem splitMonth_spec (y fuel m days : Nat) (hm : 1 ≤ m) (hf : m + fuel = 12)
    (hd : monthStart y m + days < yearDays y) :
    let r := splitMonth y fuel m days
    m ≤ r.1 ∧ r.1 ≤ 12 ∧ monthStart y r.1 + r.2 = monthStart y m + days ∧ r.2 < daysIn y r.1 := by
  induction fuel generalizing m days with
  | zero =>
    have : m = 12 := by omega
    subst this
    simp only [splitMonth]
    refine ⟨Nat.le_refl _, Nat.le_refl _, trivial, ?_⟩
    have e : monthStart y 12 + 31 = yearDays y := by
      by_cases c : leapYear y
      · simp [monthStart, daysBeforeMonth, yearDays, c, (isLeap_iff y).mpr c]
      · have : isLeap y = false := by
          cases h : isLeap y
          · rfl
          · exact absurd ((isLeap_iff y).mp h) c
        simp [monthStart, daysBeforeMonth, yearDays, c, this]
    have : daysIn y 12 = 31 := by simp [daysIn]
    omega
  | succ fuel ih =>
    simp only [splitMonth, monthDays_eq]
    split
    · rename_i h; exact ⟨Nat.le_refl _, by simp only; omega, rfl, h⟩
    · rename_i h
      have e := monthStart_succ y m hm (by omega)
      have := ih (m + 1) (days - daysIn y m) (by omega) (by omega) (by omega)
      simp only at this
      omega

theorem daysBeforeYear_mono {a b : Nat} (ha : 1 ≤ a) (h : a ≤ b) : daysBeforeYear a ≤ daysBeforeYear b := by
  induction b with
  | zero => omega
  | succ b ih =>
    rcases Nat.lt_or_ge b a with hb | hb
    · have : a = b + 1 := by omega
      rw [this]; exact Nat.le_refl _
    · rw [daysBeforeYear_succ b (by omega)]
      exact Nat.le_trans (ih hb) (Nat.le_add_right _ _)

theorem dec4_decEnc {n : Nat} (h : n < 10000) : dec4 n = decEnc 4 n := by
  unfold dec4
  have z : ∀ k, decEnc (k + 1) n = UInt8.ofNat (48 + n / 10 ^ k % 10) :: decEnc k n := fun k => rfl
  split
  · have e3 : n / 10 ^ 3 % 10 = 0 := by omega
    have e2 : n / 10 ^ 2 % 10 = 0 := by omega
    have e1 : n / 10 ^ 1 % 10 = 0 := by omega
    rw [z, z, z, e3, e2, e1, dec_one (by assumption), z]
    have : n / 10 ^ 0 % 10 = n := by simp; omega
    rw [this]; rfl
  split
  · have e3 : n / 10 ^ 3 % 10 = 0 := by omega
    have e2 : n / 10 ^ 2 % 10 = 0 := by omega
    rw [z, z, e3, e2, dec_decEnc (w := 1) (by omega) (by omega)]; rfl
  split
  · have e3 : n / 10 ^ 3 % 10 = 0 := by omega
    rw [z, e3, dec_decEnc (w := 2) (by omega) (by omega)]; rfl
  · exact dec_decEnc (w := 3) (by omega) (by omega)

end Verif
