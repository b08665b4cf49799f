import Verif.Spec.Ints
import Verif.Model.Utils
/-! Helper lemmas: bit operations as arithmetic, encodings as explicit bytes. -/

namespace Verif
open Spec

theorem shl_or {a b k : Nat} (h : b < 2 ^ k) : (a <<< k) ||| b = a * 2 ^ k + b := by
  rw [← Nat.shiftLeft_add_eq_or_of_lt h, Nat.shiftLeft_eq]

theorem u8lt (b : UInt8) : b.toNat < 256 := b.toNat_lt

theorem ofNat_toNat (n : Nat) : (UInt8.ofNat (n % 256)).toNat = n % 256 := by
  simp [UInt8.toNat_ofNat']

theorem read2_val (a b : UInt8) : (a.toNat <<< 8) ||| b.toNat = a.toNat * 256 + b.toNat :=
  shl_or (k := 8) (u8lt b)

theorem read3_val (a b c : UInt8) :
    (a.toNat <<< 16) ||| (b.toNat <<< 8) ||| c.toNat = a.toNat * 65536 + b.toNat * 256 + c.toNat := by
  have hb := u8lt b; have hc := u8lt c
  rw [Nat.or_assoc, shl_or (k := 8) hc, shl_or (k := 16) (by omega)]; omega

theorem read4_val (a b c d : UInt8) :
    (a.toNat <<< 24) ||| (b.toNat <<< 16) ||| (c.toNat <<< 8) ||| d.toNat =
      a.toNat * 16777216 + b.toNat * 65536 + c.toNat * 256 + d.toNat := by
  have hb := u8lt b; have hc := u8lt c; have hd := u8lt d
  rw [Nat.or_assoc, Nat.or_assoc, shl_or (k := 8) hd, shl_or (k := 16) (by omega), shl_or (k := 24) (by omega)]; omega

theorem beVal_nil : beVal [] = 0 := rfl

theorem beVal_foldl (b : Bytes) (a : Nat) :
    b.foldl (fun a x => a * 256 + x.toNat) a = a * 256 ^ b.length + beVal b := by
  induction b generalizing a with
  | nil => simp [beVal]
  | cons x xs ih =>
    simp only [List.foldl_cons, beVal, List.length_cons]
    rw [ih, ih (0 * 256 + x.toNat), Nat.pow_succ]
    simp only [Nat.zero_mul, Nat.zero_add, Nat.add_mul]
    rw [Nat.mul_assoc, Nat.mul_comm 256]; omega

theorem beVal_cons (x : UInt8) (b : Bytes) : beVal (x :: b) = x.toNat * 256 ^ b.length + beVal b := by
  rw [beVal, List.foldl_cons, beVal_foldl]; simp

theorem beVal_append (a b : Bytes) : beVal (a ++ b) = beVal a * 256 ^ b.length + beVal b := by
  rw [beVal, List.foldl_append, beVal_foldl]; rfl

theorem beVal_lt (b : Bytes) : beVal b < 256 ^ b.length := by
  induction b with
  | nil => simp [beVal]
  | cons x xs ih =>
    rw [beVal_cons, List.length_cons, Nat.pow_succ]
    have := u8lt x
    have h : (x.toNat + 1) * 256 ^ xs.length ≤ 256 * 256 ^ xs.length := Nat.mul_le_mul_right _ (by omega)
    rw [Nat.add_mul] at h
    rw [Nat.mul_comm (256 ^ xs.length) 256]; omega

@[simp] theorem beEnc_length (w n : Nat) : (beEnc w n).length = w := by
  induction w with
  | zero => rfl
  | succ w ih => simp [beEnc, ih]

theorem beVal_beEnc_mod (w n : Nat) : beVal (beEnc w n) = n % 256 ^ w := by
  induction w with
  | zero => simp [beEnc, beVal, Nat.mod_one]
  | succ w ih =>
    rw [beEnc, beVal_cons, ih, beEnc_length, ofNat_toNat, Nat.pow_succ, Nat.mod_mul]
    rw [Nat.mul_comm]; omega

theorem beVal_beEnc {w n : Nat} (h : n < 256 ^ w) : beVal (beEnc w n) = n := by
  rw [beVal_beEnc_mod, Nat.mod_eq_of_lt h]

/-! ## The reads are the generic big-endian value -/

theorem matchReadFrom1_eq (b : Bytes) :
    matchReadFrom1 b = if 1 ≤ b.length then some (beVal (b.take 1)) else none := by
  match b with
  | [] => rfl
  | a :: t => simp [matchReadFrom1, beVal]

theorem matchReadFrom2_eq (b : Bytes) :
    matchReadFrom2 b = if 2 ≤ b.length then some (beVal (b.take 2)) else none := by
  match b with
  | [] => rfl
  | [_] => rfl
  | a :: b :: t => simp [matchReadFrom2, beVal, read2_val]

theorem matchReadFrom3_eq (b : Bytes) :
    matchReadFrom3 b = if 3 ≤ b.length then some (beVal (b.take 3)) else none := by
  match b with
  | [] => rfl
  | [_] => rfl
  | [_, _] => rfl
  | a :: b :: c :: t =>
    simp only [matchReadFrom3, read3_val]
    simp [beVal]; omega

theorem matchReadFrom4_eq (b : Bytes) :
    matchReadFrom4 b = if 4 ≤ b.length then some (beVal (b.take 4)) else none := by
  match b with
  | [] => rfl
  | [_] => rfl
  | [_, _] => rfl
  | [_, _, _] => rfl
  | a :: b :: c :: d :: t =>
    simp only [matchReadFrom4, read4_val]
    simp [beVal]; omega

theorem utUllCreate_eq {hi lo : Nat} (hh : hi < 2 ^ 32) (hl : lo < 2 ^ 32) :
    utUllCreate hi lo = hi * 2 ^ 32 + lo := by
  have h1 : u64 (hi <<< 32) = hi <<< 32 := by
    rw [u64, Nat.shiftLeft_eq]; omega
  rw [utUllCreate, h1, shl_or hl]

theorem beVal_take_lt (b : Bytes) (k : Nat) : beVal (b.take k) < 256 ^ k := by
  refine Nat.lt_of_lt_of_le (beVal_lt _) (Nat.pow_le_pow_right (by omega) ?_)
  rw [List.length_take]; omega

theorem beVal_take_add (b : Bytes) (i j : Nat) (h : i + j ≤ b.length) :
    beVal (b.take (i + j)) = beVal (b.take i) * 256 ^ j + beVal ((b.drop i).take j) := by
  have : b.take (i + j) = b.take i ++ (b.drop i).take j := by
    rw [List.take_add]
  rw [this, beVal_append]
  congr 3
  rw [List.length_take, List.length_drop]; omega

theorem matchReadFrom7_eq (b : Bytes) :
    matchReadFrom7 b = if 7 ≤ b.length then some (beVal (b.take 7)) else none := by
  simp only [matchReadFrom7, matchReadFrom3_eq, matchReadFrom4_eq, sliceFrom]
  by_cases h : 7 ≤ b.length
  · have h3 : 3 ≤ b.length := by omega
    have h4 : 4 ≤ b.length - 3 := by omega
    simp only [h, h3, h4, if_true, List.length_drop, Option.bind_eq_bind, Option.bind_some, pure]
    rw [utUllCreate_eq (Nat.lt_of_lt_of_le (beVal_take_lt _ _) (by omega)) (beVal_take_lt _ _), beVal_take_add b 3 4 (by omega)]
  · by_cases h3 : 3 ≤ b.length
    · have h4 : ¬ 4 ≤ b.length - 3 := by omega
      simp [h, h3, h4]
    · simp [h, h3]

theorem matchReadFrom8_eq (b : Bytes) :
    matchReadFrom8 b = if 8 ≤ b.length then some (beVal (b.take 8)) else none := by
  simp only [matchReadFrom8, matchReadFrom4_eq, sliceFrom]
  by_cases h : 8 ≤ b.length
  · have h3 : 4 ≤ b.length := by omega
    have h4 : 4 ≤ b.length - 4 := by omega
    simp only [h, h3, h4, if_true, List.length_drop, Option.bind_eq_bind, Option.bind_some, pure]
    have := utUllCreate_eq (beVal_take_lt b 4) (beVal_take_lt (b.drop 4) 4)
    rw [utUllCreate] at this
    rw [this, beVal_take_add b 4 4 (by omega)]
  · by_cases h3 : 4 ≤ b.length
    · have h4 : ¬ 4 ≤ b.length - 4 := by omega
      simp [h, h3, h4]
    · simp [h, h3]

/-! ## Reads at a position -/

/-- the generic read used to state facts about all widths at once -/
def readW (w : Nat) (d : Bytes) (pos : Nat) : Option Nat :=
  if pos + w ≤ d.length then some (beVal ((d.drop pos).take w)) else none

theorem readW_of_eq {f : Bytes → Option Nat} {w : Nat} (hw : 1 ≤ w)
    (hf : ∀ b, f b = if w ≤ b.length then some (beVal (b.take w)) else none) (d : Bytes) (pos : Nat) :
    (do f (← sliceFrom d pos)) = readW w d pos := by
  simp only [sliceFrom, readW]
  by_cases h : pos ≤ d.length
  · simp only [h, if_true, Option.bind_eq_bind, Option.bind_some, hf, List.length_drop]
    by_cases h2 : pos + w ≤ d.length
    · have : w ≤ d.length - pos := by omega
      simp [h2, this]
    · have : ¬ w ≤ d.length - pos := by omega
      simp [h2, this]
  · have h2 : ¬ pos + w ≤ d.length := by omega
    simp [h, h2]

theorem read1_eq (d : Bytes) (pos : Nat) : read1 d pos = readW 1 d pos := readW_of_eq (by omega) matchReadFrom1_eq d pos
theorem read2_eq (d : Bytes) (pos : Nat) : read2 d pos = readW 2 d pos := readW_of_eq (by omega) matchReadFrom2_eq d pos
theorem read3_eq (d : Bytes) (pos : Nat) : read3 d pos = readW 3 d pos := readW_of_eq (by omega) matchReadFrom3_eq d pos
theorem read4_eq (d : Bytes) (pos : Nat) : read4 d pos = readW 4 d pos := readW_of_eq (by omega) matchReadFrom4_eq d pos
theorem read7_eq (d : Bytes) (pos : Nat) : read7 d pos = readW 7 d pos := readW_of_eq (by omega) matchReadFrom7_eq d pos
theorem read8_eq (d : Bytes) (pos : Nat) : read8 d pos = readW 8 d pos := readW_of_eq (by omega) matchReadFrom8_eq d pos

theorem readW_append (pre e suf : Bytes) : readW e.length (pre ++ e ++ suf) pre.length = some (beVal e) := by
  simp [readW]

theorem readW_beEnc (pre suf : Bytes) {w n : Nat} (h : n < 256 ^ w) :
    readW w (pre ++ beEnc w n ++ suf) pre.length = some n := by
  have := readW_append pre (beEnc w n) suf
  rwa [beEnc_length, beVal_beEnc h] at this

theorem readW_lt {w : Nat} {d : Bytes} {pos n : Nat} (h : readW w d pos = some n) : n < 256 ^ w := by
  unfold readW at h
  split at h
  · cases h; exact beVal_take_lt _ _
  · cases h

/-! ## Masks -/

theorem and_mask (n k : Nat) : n &&& (2 ^ k - 1) = n % 2 ^ k := Nat.and_two_pow_sub_one_eq_mod n k

theorem and_bit (n k : Nat) : n &&& 2 ^ k = n / 2 ^ k % 2 * 2 ^ k := by
  have h2 : n.testBit k = decide (n / 2 ^ k % 2 = 1) := Nat.testBit_eq_decide_div_mod_eq
  apply Nat.eq_of_testBit_eq
  intro i
  rw [Nat.testBit_and, Nat.testBit_two_pow]
  rcases Nat.mod_two_eq_zero_or_one (n / 2 ^ k) with h | h
  · rw [h, Nat.zero_mul, Nat.zero_testBit]
    by_cases hk : k = i
    · subst hk; rw [h2, h]; rfl
    · simp [hk]
  · rw [h, Nat.one_mul, Nat.testBit_two_pow]
    by_cases hk : k = i
    · subst hk; rw [h2, h]; rfl
    · simp [hk]

theorem bit_eq_zero_iff (n k : Nat) : n &&& 2 ^ k = 0 ↔ n / 2 ^ k % 2 = 0 := by
  rw [and_bit]
  have : 0 < 2 ^ k := Nat.pos_of_ne_zero (by simp)
  constructor
  · intro h
    rcases Nat.mul_eq_zero.mp h with h | h <;> omega
  · intro h; rw [h, Nat.zero_mul]

end Verif
