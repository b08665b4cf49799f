import Verif.Spec.Text
import Verif.Proofs.Arith
/-! Lemmas about decimal text. -/

namespace Verif
open Spec

theorem decAux_acc (f n : Nat) (acc : Bytes) : decAux f n acc = decAux f n [] ++ acc := by
  induction f generalizing n acc with
  | zero => simp [decAux]
  | succ f ih =>
    simp only [decAux]
    split
    · simp
    · rw [ih (n / 10) (_ :: acc), ih (n / 10) [_]]; simp

theorem decAux_fuel {n f g : Nat} (hf : n < f) (hg : n < g) : decAux f n [] = decAux g n [] := by
  induction n using Nat.strongRecOn generalizing f g with
  | _ n ih =>
    cases f with
    | zero => omega
    | succ f =>
      cases g with
      | zero => omega
      | succ g =>
        simp only [decAux]
        split
        · rfl
        · rw [decAux_acc f, decAux_acc g, ih (n / 10) (by omega) (f := f) (g := g) (by omega) (by omega)]

theorem dec_eq (n : Nat) :
    dec n = if n < 10 then [UInt8.ofNat (48 + n)] else dec (n / 10) ++ [UInt8.ofNat (48 + n % 10)] := by
  rw [dec, decAux]
  split
  · rename_i h; rw [Nat.mod_eq_of_lt h]
  · rw [decAux_acc, dec, decAux_fuel (by omega) (show n / 10 < n / 10 + 1 by omega)]

theorem dec_one {n : Nat} (h : n < 10) : dec n = [UInt8.ofNat (48 + n)] := by rw [dec_eq, if_pos h]

theorem decEnc_snoc (w n : Nat) : decEnc (w + 1) n = decEnc w (n / 10) ++ [UInt8.ofNat (48 + n % 10)] := by
  induction w generalizing n with
  | zero => simp [decEnc]
  | succ w ih =>
    rw [decEnc, ih, decEnc, List.cons_append]
    congr 1
    rw [Nat.pow_succ, Nat.div_div_eq_div_mul, Nat.mul_comm 10]

theorem dec_decEnc {w n : Nat} (h1 : 10 ^ w ≤ n) (h2 : n < 10 ^ (w + 1)) : dec n = decEnc (w + 1) n := by
  induction w generalizing n with
  | zero =>
    rw [dec_one (by simpa using h2), decEnc, decEnc]
    simp at h2
    simp [Nat.mod_eq_of_lt h2]
  | succ w ih =>
    have hp : 10 ^ (w + 1) = 10 ^ w * 10 := Nat.pow_succ ..
    have hp2 : 10 ^ (w + 1 + 1) = 10 ^ (w + 1) * 10 := Nat.pow_succ ..
    have : 0 < 10 ^ w := Nat.pow_pos (by omega)
    rw [dec_eq, if_neg (by omega), decEnc_snoc, ih (by omega) (by omega)]

theorem dec2_decEnc {n : Nat} (h : n < 100) : dec2 n = decEnc 2 n := by
  rw [dec2]
  split
  · rename_i h1
    rw [dec_one h1, decEnc, decEnc, decEnc]
    have : n / 10 = 0 := by omega
    simp [this, Nat.mod_eq_of_lt h1]
  · exact dec_decEnc (w := 1) (by omega) (by omega)

theorem dec2_ge {w n : Nat} (h1 : 10 ^ (w + 1) ≤ n) (h2 : n < 10 ^ (w + 2)) : dec2 n = decEnc (w + 2) n := by
  have : 0 < 10 ^ w := Nat.pow_pos (by omega)
  have hp : 10 ^ (w + 1) = 10 ^ w * 10 := Nat.pow_succ ..
  rw [dec2, if_neg (by omega), dec_decEnc h1 h2]

theorem digit_toNat {k : Nat} (h : k < 10) : (UInt8.ofNat (48 + k)).toNat = 48 + k := by
  rw [UInt8.toNat_ofNat']; omega

theorem decVal_append_digit (b : Bytes) (k : Nat) (h : k < 10) :
    decVal (b ++ [UInt8.ofNat (48 + k)]) = (decVal b).map (fun a => a * 10 + k) := by
  unfold decVal
  rw [List.foldl_append]
  simp only [List.foldl_cons, List.foldl_nil]
  generalize List.foldl _ (some 0) b = o
  cases o with
  | none => rfl
  | some a =>
    simp only [Option.bind_some, digit_toNat h, Option.map_some]
    rw [if_pos (by omega)]; congr 1; omega

theorem decVal_dec (n : Nat) : decVal (dec n) = some n := by
  induction n using Nat.strongRecOn with
  | _ n ih =>
    rw [dec_eq]
    split
    · rename_i h
      have := decVal_append_digit [] n h
      simp only [List.nil_append] at this
      rw [this]; simp [decVal]
    · rw [decVal_append_digit _ _ (by omega), ih (n / 10) (by omega), Option.map_some]
      congr 1; omega

theorem decVal_decEnc {w n : Nat} (h : n < 10 ^ w) : decVal (decEnc w n) = some n := by
  induction w generalizing n with
  | zero => simp at h; subst h; rfl
  | succ w ih =>
    rw [decEnc_snoc, decVal_append_digit _ _ (by omega), ih (by rw [Nat.pow_succ] at h; omega), Option.map_some]
    congr 1; omega

@[simp] theorem decEnc_length (w n : Nat) : (decEnc w n).length = w := by
  induction w with
  | zero => rfl
  | succ w ih => simp [decEnc, ih]

theorem decEnc_inj {w m n : Nat} (hm : m < 10 ^ w) (hn : n < 10 ^ w) (h : decEnc w m = decEnc w n) : m = n := by
  have h1 := decVal_decEnc hm
  have h2 := decVal_decEnc hn
  rw [h, h2] at h1
  exact (Option.some.inj h1).symm

/-- every byte of a decimal numeral is a digit -/
theorem dec_digits (n : Nat) : ∀ x ∈ dec n, 48 ≤ x.toNat ∧ x.toNat ≤ 57 := by
  induction n using Nat.strongRecOn with
  | _ n ih =>
    rw [dec_eq]
    split
    · rename_i h
      intro x hx
      simp only [List.mem_singleton] at hx
      rw [hx, digit_toNat h]; omega
    · intro x hx
      rcases List.mem_append.mp hx with hx | hx
      · exact ih (n / 10) (by omega) x hx
      · simp only [List.mem_singleton] at hx
        rw [hx, digit_toNat (by omega)]; omega

theorem dec_ne_nil (n : Nat) : dec n ≠ [] := by
  rw [dec_eq]; split <;> simp

theorem field_get (n k a : Nat) : (n &&& ((2 ^ a - 1) <<< k)) >>> k = n / 2 ^ k % 2 ^ a := by
  rw [Nat.shiftRight_and_distrib, Nat.shiftLeft_shiftRight, and_mask, Nat.shiftRight_eq_div_pow]

theorem clear63 {d : Nat} : andNot64 d (1 <<< 63) = d % 2 ^ 63 := and_mask d 63
theorem clear23 {d : Nat} (h : d < 2 ^ 24) : andNot64 d (1 <<< 23) = d % 2 ^ 23 := by
  have hb : not64 (1 <<< 23) = (2 ^ 40 - 1) * 2 ^ 24 + (2 ^ 23 - 1) := by decide
  have h2 : (2 ^ 40 - 1) * 2 ^ 24 + (2 ^ 23 - 1) = ((2 ^ 40 - 1) <<< 24) ||| (2 ^ 23 - 1) := by
    rw [shl_or (by decide)]
  rw [andNot64, hb, h2, Nat.and_or_distrib_left, and_mask]
  have : d &&& ((2 ^ 40 - 1) <<< 24) = 0 := by
    apply Nat.eq_of_testBit_eq
    intro i
    rw [Nat.testBit_and, Nat.testBit_shiftLeft, Nat.zero_testBit]
    by_cases hi : i < 24
    · simp; omega
    · rw [Nat.testBit_lt_two_pow (Nat.lt_of_lt_of_le h (Nat.pow_le_pow_right (by omega) (by omega)))]; rfl
  rw [this, Nat.zero_or]

end Verif
