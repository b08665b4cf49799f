import Verif.Model.Cli
import Verif.Spec.Record
import Verif.Proofs.Arith
/-!
# C50: log level selection
-/

namespace Verif.Props
open Verif Spec

/-- two letters that differ only in case, or the same byte -/
def CaseEq (x y : UInt8) : Prop :=
  x = y ∨ (65 ≤ x.toNat ∧ x.toNat ≤ 90 ∧ y.toNat = x.toNat + 32) ∨ (65 ≤ y.toNat ∧ y.toNat ≤ 90 ∧ x.toNat = y.toNat + 32)

instance (x y : UInt8) : Decidable (CaseEq x y) := inferInstanceAs (Decidable (_ ∨ _))

/-- the level names, from the least to the most verbose -/
def levelNames : List Bytes := [b! "fatal", b! "error", b! "warn", b! "info", b! "debug", b! "trace"]

def lowerByte (b : UInt8) : UInt8 := if 65 ≤ b ∧ b ≤ 90 then b + 32 else b

theorem lowerByte_toNat (b : UInt8) : (lowerByte b).toNat = if 65 ≤ b.toNat ∧ b.toNat ≤ 90 then b.toNat + 32 else b.toNat := by
  unfold lowerByte
  simp only [UInt8.le_iff_toNat_le]
  have h65 : (65 : UInt8).toNat = 65 := rfl
  have h90 : (90 : UInt8).toNat = 90 := rfl
  rw [h65, h90]
  split
  · rw [UInt8.toNat_add]
    have : (32 : UInt8).toNat = 32 := rfl
    omega
  · rfl

theorem lowerByte_eq_iff (x y : UInt8) : lowerByte x = lowerByte y ↔ CaseEq x y := by
  unfold CaseEq
  rw [← UInt8.toNat_inj, ← UInt8.toNat_inj, lowerByte_toNat, lowerByte_toNat]
  split <;> split <;> omega

theorem lower_eq_iff (a b : Bytes) : toLowerAscii a = toLowerAscii b ↔ All2 CaseEq a b := by
  induction a generalizing b with
  | nil =>
    cases b with
    | nil => exact ⟨fun _ => .nil, fun _ => rfl⟩
    | cons y b => exact ⟨fun h => (by cases h), fun h => (by cases h)⟩
  | cons x a ih =>
    cases b with
    | nil => exact ⟨fun h => (by cases h), fun h => (by cases h)⟩
    | cons y b =>
      have e : ∀ z c, toLowerAscii (z :: c) = lowerByte z :: toLowerAscii c := fun _ _ => rfl
      rw [e, e]
      constructor
      · intro h
        injection h with h1 h2
        exact .cons ((lowerByte_eq_iff x y).mp h1) ((ih b).mp h2)
      · intro h
        cases h with
        | cons h1 h2 => rw [(lowerByte_eq_iff x y).mpr h1, (ih b).mpr h2]

/-- **C50.** Spellings that differ only in case select the same level. -/
theorem C50_case_insensitive (a b : Bytes) (h : All2 CaseEq a b) : initLogs a = initLogs b := by
  unfold initLogs
  rw [(lower_eq_iff a b).mpr h]

theorem levelNames_lower : ∀ n ∈ levelNames, toLowerAscii n = n := by decide

/-- **C50.** Each name, however capitalised, selects its place in the order of verbosity. -/
theorem C50_levels (i : Nat) (name s : Bytes) (hn : levelNames[i]? = some name) (h : All2 CaseEq s name) : initLogs s = i := by
  rw [C50_case_insensitive s name h]
  have hi : i < 6 := by
    have := (List.getElem?_eq_some_iff.mp hn).1
    exact this
  have : i = 0 ∨ i = 1 ∨ i = 2 ∨ i = 3 ∨ i = 4 ∨ i = 5 := by omega
  rcases this with rfl | rfl | rfl | rfl | rfl | rfl <;> cases hn <;> decide

/-- **C50.** Every other name means INFO. -/
theorem C50_unknown (s : Bytes) (h : ∀ n ∈ levelNames, ¬ All2 CaseEq s n) : initLogs s = 3 := by
  have hne : ∀ n ∈ levelNames, toLowerAscii s ≠ n := by
    intro n hn he
    apply h n hn
    rw [← lower_eq_iff, levelNames_lower n hn]
    exact he
  unfold initLogs levelMap
  rw [if_neg (hne _ (by decide)), if_neg (hne _ (by decide)), if_neg (hne _ (by decide)), if_neg (hne _ (by decide)),
    if_neg (hne _ (by decide)), if_neg (hne _ (by decide))]
  rfl

/-- **C50.** A message of level `i` is written under the level named `a` exactly when `i` is at most as verbose. -/
theorem C50_written (a : Bytes) (i : Nat) : logWritten (initLogs a) i = true ↔ i ≤ initLogs a := by
  unfold logWritten
  rw [decide_eq_true_iff]

/-- **C50.** A more verbose level never suppresses a message that a less verbose one writes. -/
theorem C50_monotone (i j : Nat) (a b sa sb : Bytes) (ha : levelNames[i]? = some a) (hb : levelNames[j]? = some b) (hij : i ≤ j)
    (hsa : All2 CaseEq sa a) (hsb : All2 CaseEq sb b) (m : Nat) (hw : logWritten (initLogs sa) m = true) :
    logWritten (initLogs sb) m = true := by
  rw [C50_written, C50_levels i a sa ha hsa] at hw
  rw [C50_written, C50_levels j b sb hb hsb]
  omega

theorem all2_of_zip : ∀ (a b : Bytes), a.length = b.length → (∀ p ∈ a.zip b, CaseEq p.1 p.2) → All2 CaseEq a b
  | [], [], _, _ => .nil
  | _ :: _, [], h, _ => by cases h
  | [], _ :: _, h, _ => by cases h
  | _ :: as, _ :: bs, h, hp => .cons (hp _ List.mem_cons_self) (all2_of_zip as bs (Nat.succ.inj h) fun p h => hp p (List.mem_cons_of_mem _ h))

/-- non-vacuity -/
example : initLogs (b! "wARn") = 2 := C50_levels 2 (b! "warn") _ rfl (all2_of_zip _ _ rfl (by decide))
example : initLogs (b! "verbose") = 3 := by
  apply C50_unknown
  intro n hn h
  have := (lower_eq_iff _ _).mpr h
  revert this
  revert n
  decide

end Verif.Props
