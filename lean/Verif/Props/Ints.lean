import Verif.Proofs.Ints
import Verif.Proofs.GoM
/-!
# C01 – C07, C15, C16: integers and floats
-/

set_option linter.unusedSimpArgs false

namespace Verif.Props
open Verif Spec

/-! ## C01 -/

/-- **C01.** Each fixed-width read returns the stored integer whatever follows, and panics exactly when the buffer is
shorter than the width. -/
theorem C01_big_endian_reads :
    ∀ p ∈ [(1, matchReadFrom1), (2, matchReadFrom2), (3, matchReadFrom3), (4, matchReadFrom4), (7, matchReadFrom7),
           (8, matchReadFrom8)],
      (∀ (n : Nat) (rest : Bytes), n < 256 ^ p.1 → p.2 (beEnc p.1 n ++ rest) = some n) ∧
      (∀ b : Bytes, p.2 b = none ↔ b.length < p.1) := by
  have fail : ∀ (w : Nat) (f : Bytes → Option Nat),
      (∀ b, f b = if w ≤ b.length then some (beVal (b.take w)) else none) → ∀ b : Bytes, f b = none ↔ b.length < w := by
    intro w f hf b
    rw [hf]; split <;> simp <;> omega
  intro p hp
  simp only [List.mem_cons, List.not_mem_nil, or_false] at hp
  rcases hp with rfl | rfl | rfl | rfl | rfl | rfl
  · exact ⟨fun n r h => rd1 r h, fail _ _ matchReadFrom1_eq⟩
  · exact ⟨fun n r h => rd2 r h, fail _ _ matchReadFrom2_eq⟩
  · exact ⟨fun n r h => rd3 r h, fail _ _ matchReadFrom3_eq⟩
  · exact ⟨fun n r h => rd4 r h, fail _ _ matchReadFrom4_eq⟩
  · exact ⟨fun n r h => rd7 r h, fail _ _ matchReadFrom7_eq⟩
  · exact ⟨fun n r h => rd8 r h, fail _ _ matchReadFrom8_eq⟩

/-- the encoder produces what InnoDB writes -/
example : beEnc 3 0x010203 = [1, 2, 3] := by decide
example : matchReadFrom7 [0, 1, 2, 3, 4, 5, 6, 99] = some 0x00010203040506 := by decide
example : (0xFFFFFFFFFFFFFF : Nat) < 256 ^ 7 := by decide

/-- Every byte string is the encoding of some number, so C01 covers every buffer that is long enough. -/
theorem C01_all_buffers (b : Bytes) : ∃ n, n < 256 ^ b.length ∧ beEnc b.length n = b := by
  induction b with
  | nil => exact ⟨0, by simp, rfl⟩
  | cons x xs ih =>
    obtain ⟨n, hn, he⟩ := ih
    refine ⟨x.toNat * 256 ^ xs.length + n, ?_, ?_⟩
    · have := u8lt x
      rw [List.length_cons, Nat.pow_succ]
      have h : (x.toNat + 1) * 256 ^ xs.length ≤ 256 * 256 ^ xs.length := Nat.mul_le_mul_right _ (by omega)
      rw [Nat.add_mul] at h
      rw [Nat.mul_comm (256 ^ xs.length)]; omega
    · rw [List.length_cons, beEnc]
      have hp : 0 < 256 ^ xs.length := Nat.pow_pos (by omega)
      have h1 : (x.toNat * 256 ^ xs.length + n) / 256 ^ xs.length = x.toNat := by
        rw [Nat.mul_comm, Nat.mul_add_div hp, Nat.div_eq_of_lt hn, Nat.add_zero]
      have key : ∀ w m k, m < 256 ^ w → beEnc w (k * 256 ^ w + m) = beEnc w m := by
        intro w
        induction w with
        | zero => intros; rfl
        | succ w ih =>
          intro m k hm
          have hp : 0 < 256 ^ w := Nat.pow_pos (by omega)
          have e : k * 256 ^ (w + 1) + m = (k * 256 + m / 256 ^ w) * 256 ^ w + m % 256 ^ w := by
            rw [Nat.add_mul, Nat.pow_succ, Nat.add_assoc, Nat.mul_comm (m / 256 ^ w), Nat.div_add_mod, Nat.mul_assoc,
              Nat.mul_comm 256]
          have e2 : m = (m / 256 ^ w) * 256 ^ w + m % 256 ^ w := by
            rw [Nat.mul_comm, Nat.div_add_mod]
          have hm2 := Nat.mod_lt m hp
          rw [beEnc, beEnc, e, ih _ _ hm2]
          congr 1
          · rw [Nat.mul_comm (k * 256 + m / 256 ^ w), Nat.mul_add_div hp, Nat.div_eq_of_lt hm2]
            congr 1; omega
          · conv => rhs; rw [e2, ih _ _ hm2]
      rw [h1, key _ _ _ hn, he]
      congr 1
      apply UInt8.toNat_inj.mp
      rw [ofNat_toNat]; have := u8lt x; omega

/-! ## C02 -/

/-- **C02.** Decoding the InnoDB encoding of `n` at any position of any buffer gives `n` and the encoding's length. -/
theorem C02_compressed_roundtrip (pre suf : Bytes) (n : Nat) (h : n < 2 ^ 32) :
    matchParseCompressed (pre ++ compEnc n ++ suf) pre.length = some ⟨n, (compEnc n).length, none⟩ :=
  mpc_compEnc pre suf h

/-- **C02, truncation.** If the buffer ends inside the encoding, the five-byte form reports an error (unless nothing at
all is left) and every other form panics; no value is returned. -/
theorem C02_compressed_truncated (pre : Bytes) (n k : Nat) (h : n < 2 ^ 32) (hk : k < (compEnc n).length) :
    matchParseCompressed (pre ++ (compEnc n).take k) pre.length =
      if 1 ≤ k ∧ 0x10000000 ≤ n then some ⟨0, 5, some errTooShortCompressed⟩ else none :=
  mpc_truncated pre h hk

example : compEnc 0x12345 = [0xC1, 0x23, 0x45] := by decide
example : compEnc 0xFFFFFFFF = [0xF0, 0xFF, 0xFF, 0xFF, 0xFF] := by decide
example : matchParseCompressed ([7, 7] ++ [0xC1, 0x23, 0x45] ++ [9]) 2 = some ⟨0x12345, 3, none⟩ := by decide
example : (2 : Nat) < (compEnc 0xFFFFFFFF).length ∧ 0xFFFFFFFF < 2 ^ 32 := by decide

/-! ## C03 -/

/-- **C03.** The size function is the length of InnoDB's encoding (for every number). -/
theorem C03_size_is_encoded_length (n : Nat) : matchGetCompressedSize n = (compEnc n).length := by
  rw [compEnc_length]; rfl

/-- **C03.** The decoder consumes exactly that many bytes. -/
theorem C03_decoder_consumes_size (pre suf : Bytes) (n : Nat) (h : n < 2 ^ 32) :
    (matchParseCompressed (pre ++ compEnc n ++ suf) pre.length).map PC.num = some (matchGetCompressedSize n) := by
  rw [mpc_compEnc pre suf h, C03_size_is_encoded_length]; rfl

example : matchGetCompressedSize 0x10000000 = 5 ∧ matchGetCompressedSize 0xFFFFFFF = 4 := by decide

/-! ## C04 -/

/-- The full claim of C04: value and cursor are right, at every position and in every context. -/
def C04_statement : Prop :=
  ∀ (pre suf : Bytes) (n : Nat) (out : Out), n < 2 ^ 64 →
    matchUllReadComPressed (pre ++ ullCompEnc n ++ suf) (pre.length, out) =
      .ok n (pre.length + (ullCompEnc n).length, out)

/-- C04 is false of the code: the encoding of 7 followed by zeros decodes to another number. -/
theorem C04_false : ¬ C04_statement := by
  intro h
  have := h [] [0, 0] 7 [] (by decide)
  revert this; decide

/-- **C04 (partial).** With enough bytes behind the encoding the cursor is advanced exactly by the encoding's length
and the high word is right; the low word is read `size` bytes too far (behind the place where it is stored), because
the compressed size is skipped twice.  Missing: the low word, and encodings at the very end of the buffer, where the
code panics (`C04_panics_at_end`). -/
theorem C04_cursor_and_high_word_partial (pre suf : Bytes) (n : Nat) (out : Out) (h : n < 2 ^ 64)
    (hs : (compEnc (n / 2 ^ 32)).length ≤ suf.length) :
    ∃ low, low < 2 ^ 32 ∧
      low = beVal (((beEnc 4 (n % 2 ^ 32) ++ suf).drop (compEnc (n / 2 ^ 32)).length).take 4) ∧
      matchUllReadComPressed (pre ++ ullCompEnc n ++ suf) (pre.length, out) =
        .ok (n / 2 ^ 32 * 2 ^ 32 + low) (pre.length + (ullCompEnc n).length, out) := by
  have hhi : n / 2 ^ 32 < 2 ^ 32 := by omega
  have e : pre ++ ullCompEnc n ++ suf = pre ++ compEnc (n / 2 ^ 32) ++ (beEnc 4 (n % 2 ^ 32) ++ suf) := by
    simp [ullCompEnc, List.append_assoc]
  refine ⟨_, ?_, rfl, ?_⟩
  · exact beVal_take_lt _ 4
  · rw [matchUllReadComPressed, e, mpc_compEnc _ _ hhi]
    simp only []
    have l1 : pre.length + (compEnc (n / 2 ^ 32)).length ≤
        (pre ++ compEnc (n / 2 ^ 32) ++ (beEnc 4 (n % 2 ^ 32) ++ suf)).length := by simp only [List.length_append, beEnc_length, List.length_drop]; omega
    have d1 : (pre ++ compEnc (n / 2 ^ 32) ++ (beEnc 4 (n % 2 ^ 32) ++ suf)).drop
        (pre.length + (compEnc (n / 2 ^ 32)).length) = beEnc 4 (n % 2 ^ 32) ++ suf := by
      rw [← List.length_append, List.drop_left]
    rw [C03_size_is_encoded_length]
    have l2 : (compEnc (n / 2 ^ 32)).length ≤ (beEnc 4 (n % 2 ^ 32) ++ suf).length := by simp only [List.length_append, beEnc_length, List.length_drop]; omega
    have l3 : 4 ≤ ((beEnc 4 (n % 2 ^ 32) ++ suf).drop (compEnc (n / 2 ^ 32)).length).length := by simp only [List.length_append, beEnc_length, List.length_drop]; omega
    simp only [sliceFrom, if_pos l1, d1, Option.bind_eq_bind, Option.bind_some, if_pos l2, matchReadFrom4_eq, if_pos l3]
    have := utUllCreate_eq hhi (beVal_take_lt (List.drop (compEnc (n / 2 ^ 32)).length (beEnc 4 (n % 2 ^ 32) ++ suf)) 4)
    rw [utUllCreate] at this
    rw [this]
    simp only [ullCompEnc, Nat.add_assoc, List.length_append, beEnc_length]

example : (compEnc (0x1234567890 / 2 ^ 32)).length ≤ ([1, 2] : Bytes).length := by decide

/-- **C04.** An encoding with fewer bytes behind it than the size of its high word makes the code panic. -/
theorem C04_panics_at_end (pre suf : Bytes) (n : Nat) (out : Out) (h : n < 2 ^ 64)
    (hs : suf.length < (compEnc (n / 2 ^ 32)).length) :
    ∃ s, matchUllReadComPressed (pre ++ ullCompEnc n ++ suf) (pre.length, out) = .panic s := by
  have hhi : n / 2 ^ 32 < 2 ^ 32 := by omega
  have e : pre ++ ullCompEnc n ++ suf = pre ++ compEnc (n / 2 ^ 32) ++ (beEnc 4 (n % 2 ^ 32) ++ suf) := by
    simp [ullCompEnc, List.append_assoc]
  rw [matchUllReadComPressed, e, mpc_compEnc _ _ hhi]
  simp only []
  have l1 : pre.length + (compEnc (n / 2 ^ 32)).length ≤
      (pre ++ compEnc (n / 2 ^ 32) ++ (beEnc 4 (n % 2 ^ 32) ++ suf)).length := by simp only [List.length_append, beEnc_length, List.length_drop]; omega
  have d1 : (pre ++ compEnc (n / 2 ^ 32) ++ (beEnc 4 (n % 2 ^ 32) ++ suf)).drop
      (pre.length + (compEnc (n / 2 ^ 32)).length) = beEnc 4 (n % 2 ^ 32) ++ suf := by
    rw [← List.length_append, List.drop_left]
  rw [C03_size_is_encoded_length]
  simp only [sliceFrom, if_pos l1, d1, Option.bind_eq_bind, Option.bind_some]
  by_cases l2 : (compEnc (n / 2 ^ 32)).length ≤ (beEnc 4 (n % 2 ^ 32) ++ suf).length
  · have l3 : ¬ 4 ≤ ((beEnc 4 (n % 2 ^ 32) ++ suf).drop (compEnc (n / 2 ^ 32)).length).length := by simp only [List.length_append, beEnc_length, List.length_drop]; omega
    simp only [if_pos l2, Option.bind_some, matchReadFrom4_eq, if_neg l3]
    exact ⟨_, rfl⟩
  · simp only [if_neg l2, Option.bind_none]
    exact ⟨_, rfl⟩

example : ([] : Bytes).length < (compEnc (7 / 2 ^ 32)).length := by decide

/-! ## C05 -/

def C05_statement : Prop :=
  ∀ (n : Nat) (rest : Bytes), n < 2 ^ 64 →
    matchUllReadMuchCompressed (ullMuchEnc n ++ rest) = some (n, none) ∧
    machUllGetMuchCompressedSize n = (ullMuchEnc n).length

theorem compEnc_head (n : Nat) (h : n < 2 ^ 32) : ∃ b t, compEnc n = b :: t ∧ b.toNat ≤ 0xF0 := by
  unfold compEnc
  repeat' split
  all_goals simp [beEnc, UInt8.toNat_ofNat']
  all_goals omega

/-- **C05 (partial).** Numbers below 2^32 are decoded correctly, and for them the size function is the encoded
length.  Missing: numbers from 2^32 on, for which the code is wrong (`C05_high_word_lost`). -/
theorem C05_below_2_32_partial (n : Nat) (rest : Bytes) (h : n < 2 ^ 32) :
    matchUllReadMuchCompressed (ullMuchEnc n ++ rest) = some (n, none) ∧
    machUllGetMuchCompressedSize n = (ullMuchEnc n).length := by
  constructor
  · obtain ⟨b, t, hb, hlt⟩ := compEnc_head n h
    have e := mpc_compEnc [] rest h
    simp only [List.nil_append, List.length_nil] at e
    have hne : b ≠ 0xFF := by intro hc; rw [hc] at hlt; revert hlt; decide
    rw [ullMuchEnc, if_pos h, matchUllReadMuchCompressed]
    rw [e]
    have h0 : (compEnc n ++ rest)[0]? = some b := by rw [hb]; rfl
    simp only [h0, Option.bind_eq_bind, Option.bind_some, if_pos hne, Nat.zero_or]
    rfl
  · rw [machUllGetMuchCompressedSize, Nat.shiftRight_eq_div_pow, Nat.div_eq_of_lt h, if_pos rfl,
      C03_size_is_encoded_length, ullMuchEnc, if_pos h]

example : (0xFFFFFFFF : Nat) < 2 ^ 32 := by decide

/-- **C05, what happens from 2^32 on.** The high word is lost and the size function is one too small. -/
theorem C05_high_word_lost (n : Nat) (rest : Bytes) (h : 2 ^ 32 ≤ n) (h2 : n < 2 ^ 64) :
    matchUllReadMuchCompressed (ullMuchEnc n ++ rest) = some (n % 2 ^ 32, none) ∧
    machUllGetMuchCompressedSize n + 1 = (ullMuchEnc n).length := by
  have hhi : n / 2 ^ 32 < 2 ^ 32 := by omega
  have hlo : n % 2 ^ 32 < 2 ^ 32 := by omega
  have hne : ¬ n < 2 ^ 32 := by omega
  constructor
  · have e1 : ullMuchEnc n ++ rest = [0xFF] ++ compEnc (n / 2 ^ 32) ++ (compEnc (n % 2 ^ 32) ++ rest) := by
      simp [ullMuchEnc, hne]
    have m1 := mpc_compEnc [0xFF] (compEnc (n % 2 ^ 32) ++ rest) hhi
    have m2 := mpc_compEnc ([0xFF] ++ compEnc (n / 2 ^ 32)) rest hlo
    rw [← e1] at m1
    rw [List.append_assoc ([0xFF] ++ compEnc (n / 2 ^ 32)), ← e1] at m2
    have h0 : (ullMuchEnc n ++ rest)[0]? = some 0xFF := by rw [e1]; rfl
    have l1 : ([0xFF] : Bytes).length = 1 := rfl
    have l2 : ([0xFF] ++ compEnc (n / 2 ^ 32) : Bytes).length = 1 + (compEnc (n / 2 ^ 32)).length := by simp; omega
    rw [l1] at m1
    rw [l2] at m2
    rw [matchUllReadMuchCompressed]
    have c : ¬ ((0xFF : UInt8) ≠ 0xFF) := by decide
    simp only [h0, m1, m2, Option.bind_eq_bind, Option.bind_some, C03_size_is_encoded_length, Nat.zero_or]
    rw [if_neg c]; rfl
  · have e2 : n >>> 32 = n / 2 ^ 32 := Nat.shiftRight_eq_div_pow n 32
    have e3 : n &&& 0xFFFFFFFF = n % 2 ^ 32 := and_mask n 32
    rw [machUllGetMuchCompressedSize, e2, e3, if_neg (by omega), ullMuchEnc, if_neg hne]
    simp [C03_size_is_encoded_length]

example : 2 ^ 32 ≤ 0x123456789A ∧ 0x123456789A < 2 ^ 64 := by decide

/-- C05 is false of the code from 2^32 on. -/
theorem C05_false : ¬ C05_statement := by
  intro h
  have := (h (2 ^ 32) [] (by decide)).1
  rw [(C05_high_word_lost (2 ^ 32) [] (by decide) (by decide)).1] at this
  revert this; decide

/-! ## C06 -/

/-- The number a decoded value stands for. -/
def num : Val → Option Int
  | .int i => some i
  | .uint n => some n
  | _ => none

/-- **C06.** For every width and every number of its range, the column decoder applied to a column of a signed integer
type (not DATE or YEAR, which are stored with the same main type) yields the stored number, and `%v` prints it. -/
theorem C06_signed_integers (env : Env) (w : Nat) (hw : w ∈ [1, 2, 3, 4, 8]) (i : Int)
    (h1 : -(2 ^ (8 * w - 1)) ≤ i) (h2 : i < 2 ^ (8 * w - 1)) (rest : Bytes) (mtype : Nat)
    (hm : mtype ≠ MYSQL_TYPE_DATE) (hy : mtype ≠ MYSQL_TYPE_YEAR) (isBinary : Bool) (out : Out) :
    ∃ v, parseData env DATA_INT mtype (intEnc w i ++ rest) w w false isBinary out = .ok (v, isBinary) out ∧
      num v = some i ∧ fmtV env.ff v = decInt i := by
  have hsl : sliceTo (intEnc w i ++ rest) w = some (intEnc w i) := by
    rw [sliceTo, if_pos (by simp [intEnc]), intEnc, take_beEnc_append]
  have key : ∀ v, getIntValue w (intEnc w i) = some v →
      parseData env DATA_INT mtype (intEnc w i ++ rest) w w false isBinary out = .ok (v, isBinary) out := by
    intro v hv
    simp [parseData, DATA_INT, DATA_VARCHAR, DATA_CHAR, DATA_FIXBINARY, DATA_BINARY, hm, hy, hsl, hv]
  have triv : ∀ i : Int, num (.int i) = some i ∧ fmtV env.ff (.int i) = decInt i := fun i => ⟨rfl, rfl⟩
  simp only [List.mem_cons, List.not_mem_nil, or_false] at hw
  rcases hw with rfl | rfl | rfl | rfl | rfl
  · exact ⟨_, key _ (getInt1 h1 h2), triv i⟩
  · exact ⟨_, key _ (getInt2 h1 h2), triv i⟩
  · refine ⟨_, key _ (getInt3 h1 h2), ?_⟩
    by_cases hi : 0 ≤ i
    · rw [if_pos hi]
      have : ((i.toNat : Nat) : Int) = i := Int.toNat_of_nonneg hi
      refine ⟨by simp [num, this], ?_⟩
      have hn : ¬ i < 0 := by omega
      have : i.toNat = i.natAbs := by omega
      simp [fmtV, decInt, hn, this]
    · rw [if_neg hi]; exact triv i
  · exact ⟨_, key _ (getInt4 h1 h2), triv i⟩
  · exact ⟨_, key _ (getInt8 h1 h2), triv i⟩

example : (3 : Nat) ∈ [1, 2, 3, 4, 8] ∧ -(2 ^ (8 * 3 - 1)) ≤ (-8388608 : Int) ∧ (-8388608 : Int) < 2 ^ (8 * 3 - 1) ∧
    intEnc 3 (-8388608) = [0, 0, 0] ∧ intEnc 1 5 = [0x85] := by decide

/-! ## C07 -/

/-- The columns that hold unsigned numbers (InnoDB main type, MySQL type, unsigned flag): unsigned integers other than
DATE and YEAR, BIT columns, and the fixed-length binary ids of the dictionary tables. -/
inductive UintCol : Nat → Nat → Bool → Prop
  | int (mtype : Nat) : mtype ≠ 10 → mtype ≠ 13 → UintCol 6 mtype true
  | bit (u : Bool) : UintCol 3 16 u
  | bin (mtype : Nat) (u : Bool) : mtype ≠ 15 → UintCol 4 mtype u

/-- The full claim of C07, at the level of the column decoder. -/
def C07_statement : Prop :=
  ∀ (env : Env) (w n : Nat) (rest : Bytes) (dtype mtype : Nat) (isUnsigned isBinary : Bool) (out : Out),
    UintCol dtype mtype isUnsigned → 1 ≤ w → w ≤ 8 → n < 256 ^ w →
    parseData env dtype mtype (beEnc w n ++ rest) w w isUnsigned isBinary out = .ok (.uint n, isBinary) out

theorem uint_parse (env : Env) (w n : Nat) (rest : Bytes) {dtype mtype : Nat} {isUnsigned : Bool} (isBinary : Bool)
    (out : Out) (hc : UintCol dtype mtype isUnsigned) (hw : 1 ≤ w) :
    parseData env dtype mtype (beEnc w n ++ rest) w w isUnsigned isBinary out =
      match getUintValue w (beEnc w n) with
      | some v => .ok (.uint v, isBinary) out
      | none => .panic out := by
  have hsl : sliceTo (beEnc w n ++ rest) w = some (beEnc w n) := by
    rw [sliceTo, if_pos (by simp), take_beEnc_append]
  have hw0 : w ≠ 0 := by omega
  cases hc with
  | int _ hm hy =>
    cases hv : getUintValue w (beEnc w n) <;>
      simp [parseData, DATA_INT, DATA_VARCHAR, DATA_CHAR, DATA_FIXBINARY, DATA_BINARY, MYSQL_TYPE_DATE, MYSQL_TYPE_YEAR,
        hm, hy, hsl, hv]
  | bit u =>
    cases hv : getUintValue w (beEnc w n) <;>
      simp [parseData, DATA_INT, DATA_VARCHAR, DATA_CHAR, DATA_FIXBINARY, DATA_BINARY, MYSQL_TYPE_TIME,
        MYSQL_TYPE_TIMESTAMP, MYSQL_TYPE_DATETIME, MYSQL_TYPE_BIT, hsl, hv]
  | bin _ u hm =>
    cases hv : getUintValue w (beEnc w n) <;>
      simp [parseData, DATA_INT, DATA_VARCHAR, DATA_CHAR, DATA_FIXBINARY, DATA_BINARY, MYSQL_TYPE_VARCHAR, hm, hw0,
        hsl, hv]

/-- **C07 (partial).** Unsigned numbers of 1, 2, 4 and 8 bytes are decoded exactly.  Missing: 3-byte numbers above
2^22 (`C07_width3`) and widths 5, 6, 7 (`C07_widths567_panic`), for which the code is wrong. -/
theorem C07_widths_1_2_4_8_partial (env : Env) (w n : Nat) (rest : Bytes) (dtype mtype : Nat)
    (isUnsigned isBinary : Bool) (out : Out) (hc : UintCol dtype mtype isUnsigned) (hw : w ∈ [1, 2, 4, 8])
    (hn : n < 256 ^ w) :
    parseData env dtype mtype (beEnc w n ++ rest) w w isUnsigned isBinary out = .ok (.uint n, isBinary) out := by
  simp only [List.mem_cons, List.not_mem_nil, or_false] at hw
  rw [uint_parse env w n rest isBinary out hc (by omega)]
  rcases hw with rfl | rfl | rfl | rfl
  · simp only [getUintValue, rd1' hn]
  · simp only [getUintValue, rd2' hn]
  · simp only [getUintValue, rd4' hn]
  · simp only [getUintValue, rd8' hn]

example : (8 : Nat) ∈ [1, 2, 4, 8] ∧ 2 ^ 64 - 1 < 256 ^ 8 := by decide
example : UintCol 6 8 true ∧ UintCol 3 16 false ∧ UintCol 4 0 false :=
  ⟨.int 8 (by decide) (by decide), .bit false, .bin 0 false (by decide)⟩

/-- **C07, width 3.** The decoder keeps the low 22 bits, so it is right exactly below 2^22. -/
theorem C07_width3 (env : Env) (n : Nat) (rest : Bytes) (dtype mtype : Nat) (isUnsigned isBinary : Bool) (out : Out)
    (hc : UintCol dtype mtype isUnsigned) (hn : n < 256 ^ 3) :
    parseData env dtype mtype (beEnc 3 n ++ rest) 3 3 isUnsigned isBinary out =
      .ok (.uint (n % 2 ^ 22), isBinary) out := by
  have e : n &&& 0x3FFFFF = n % 2 ^ 22 := and_mask n 22
  rw [uint_parse env 3 n rest isBinary out hc (by omega)]
  simp only [getUintValue, rd3' hn, Option.bind_eq_bind, Option.bind_some, e]; rfl

/-- **C07, widths 5, 6, 7.** Decoding such a column always aborts the program. -/
theorem C07_widths567_panic (env : Env) (w n : Nat) (rest : Bytes) (dtype mtype : Nat) (isUnsigned isBinary : Bool)
    (out : Out) (hc : UintCol dtype mtype isUnsigned) (hw : w ∈ [5, 6, 7]) :
    parseData env dtype mtype (beEnc w n ++ rest) w w isUnsigned isBinary out = .panic out := by
  simp only [List.mem_cons, List.not_mem_nil, or_false] at hw
  rw [uint_parse env w n rest isBinary out hc (by omega)]
  rcases hw with rfl | rfl | rfl <;> simp [getUintValue, matchReadFrom8_eq]

/-- C07 is false of the code. -/
theorem C07_false : ¬ C07_statement := by
  intro h
  have := h ⟨fun _ => 0, ⟨fun _ => [], fun _ => []⟩⟩ 3 (2 ^ 22) [] 6 9 true false []
    (.int 9 (by decide) (by decide)) (by decide) (by decide) (by decide)
  rw [C07_width3 _ _ _ _ _ _ _ _ (.int 9 (by decide) (by decide)) (by decide)] at this
  revert this; decide

/-! ## C15 -/

/-- **C15.** The variable-length little-endian reader returns the little-endian number of the first eight bytes (of
all bytes if there are at most eight). -/
theorem C15_fixedLengthInt (b : Bytes) : fixedLengthInt b = leVal (b.take 8) := by
  rw [fixedLengthInt, fli_eq 0 (by omega) b 0 (by simp)]; simp

theorem C15_fixedLengthInt_roundtrip (w n : Nat) (hw : w ≤ 8) (h : n < 256 ^ w) :
    fixedLengthInt (leEnc w n) = n := by
  rw [C15_fixedLengthInt, List.take_of_length_le (by simpa using hw), leVal_leEnc h]

example : fixedLengthInt [0x01, 0x02] = 0x0201 := by decide

/-- **C15, unsigned readers.** -/
theorem C15_unsigned (n : Nat) (rest : Bytes) :
    (n < 2 ^ 8 → parseBinaryUint8 (leEnc 1 n ++ rest) = some n) ∧
    (n < 2 ^ 16 → parseBinaryUint16 (leEnc 2 n ++ rest) = some n) ∧
    (n < 2 ^ 24 → parseBinaryUint24 (leEnc 3 n ++ rest) = some n) ∧
    (n < 2 ^ 32 → parseBinaryUint32 (leEnc 4 n ++ rest) = some n) ∧
    (n < 2 ^ 64 → parseBinaryUint64 (leEnc 8 n ++ rest) = some n) := by
  have tk : ∀ w, (leEnc w n ++ rest).take w = leEnc w n := by
    intro w; rw [List.take_append_of_le_length (by simp), List.take_of_length_le (by simp)]
  refine ⟨?_, ?_, ?_, ?_, ?_⟩ <;> intro h
  · simp only [parseBinaryUint8, leEnc, List.cons_append, matchReadFrom1, ofNat_toNat]
    congr 1; omega
  · rw [parseBinaryUint16, le16_eq, if_pos (by simp), tk, leVal_leEnc (by omega)]
  · rw [uint24_eq, if_pos (by simp), tk, leVal_leEnc (by omega)]
  · rw [parseBinaryUint32, le32_eq, if_pos (by simp), tk, leVal_leEnc (by omega)]
  · rw [parseBinaryUint64, le64_eq, if_pos (by simp), tk, leVal_leEnc (by omega)]

/-- **C15, signed readers**: little-endian two's complement numbers are read with correct sign extension. -/
theorem C15_signed (i : Int) (rest : Bytes) :
    (-(2 ^ 7) ≤ i → i < 2 ^ 7 → parseBinaryInt8 (leEnc 1 (i % 2 ^ 8).toNat ++ rest) = some i) ∧
    (-(2 ^ 15) ≤ i → i < 2 ^ 15 → parseBinaryInt16 (leEnc 2 (i % 2 ^ 16).toNat ++ rest) = some i) ∧
    (-(2 ^ 23) ≤ i → i < 2 ^ 23 → parseBinaryInt24 (leEnc 3 (i % 2 ^ 24).toNat ++ rest) = some i) ∧
    (-(2 ^ 31) ≤ i → i < 2 ^ 31 → parseBinaryInt32 (leEnc 4 (i % 2 ^ 32).toNat ++ rest) = some i) ∧
    (-(2 ^ 63) ≤ i → i < 2 ^ 63 → parseBinaryInt64 (leEnc 8 (i % 2 ^ 64).toNat ++ rest) = some i) := by
  refine ⟨?_, ?_, ?_, ?_, ?_⟩ <;> intro h1 h2
  · have := (C15_unsigned (i % 2 ^ 8).toNat rest).1 (by omega)
    rw [parseBinaryUint8] at this
    simp only [parseBinaryInt8, this, Option.bind_eq_bind, Option.bind_some, pure]
    rw [toSigned]; congr 1; split <;> omega
  · have := (C15_unsigned (i % 2 ^ 16).toNat rest).2.1 (by omega)
    rw [parseBinaryUint16] at this
    simp only [parseBinaryInt16, this, Option.bind_eq_bind, Option.bind_some, pure]
    rw [toSigned]; congr 1; split <;> omega
  · have := (C15_unsigned (i % 2 ^ 24).toNat rest).2.2.1 (by omega)
    simp only [parseBinaryInt24, this, Option.bind_eq_bind, Option.bind_some, pure]
    generalize hm : (i % 2 ^ 24).toNat = m
    have hb : m &&& 0x00800000 = 0 ↔ m / 2 ^ 23 % 2 = 0 := bit_eq_zero_iff m 23
    by_cases hc : m &&& 0x00800000 ≠ 0
    · rw [if_pos hc]
      have e : m ||| 0xFF000000 = 255 * 2 ^ 24 + m := or_mul (a := 255) (k := 24) (by omega)
      rw [ne_eq, hb] at hc
      rw [e, toSigned]; congr 1; split <;> omega
    · rw [if_neg hc]
      rw [ne_eq, hb] at hc
      rw [toSigned]; congr 1; split <;> omega
  · have := (C15_unsigned (i % 2 ^ 32).toNat rest).2.2.2.1 (by omega)
    rw [parseBinaryUint32] at this
    simp only [parseBinaryInt32, this, Option.bind_eq_bind, Option.bind_some, pure]
    rw [toSigned]; congr 1; split <;> omega
  · have := (C15_unsigned (i % 2 ^ 64).toNat rest).2.2.2.2 (by omega)
    rw [parseBinaryUint64] at this
    simp only [parseBinaryInt64, this, Option.bind_eq_bind, Option.bind_some, pure]
    rw [toI64]; congr 1; split <;> omega

example : parseBinaryInt24 [0xFF, 0xFF, 0xFF, 7] = some (-1) := by decide

/-! ## C16 -/

/-- **C16.** FLOAT and DOUBLE columns keep their bit pattern. -/
theorem C16_float_bits (env : Env) (n : Nat) (rest : Bytes) (mtype fieldLen fixLength : Nat) (isUnsigned isBinary : Bool)
    (out : Out) :
    (n < 2 ^ 32 → parseData env DATA_FLOAT mtype (leEnc 4 n ++ rest) fieldLen fixLength isUnsigned isBinary out =
      .ok (.f32 n, isBinary) out) ∧
    (n < 2 ^ 64 → parseData env DATA_DOUBLE mtype (leEnc 8 n ++ rest) fieldLen fixLength isUnsigned isBinary out =
      .ok (.f64 n, isBinary) out) := by
  have tk : ∀ w, (leEnc w n ++ rest).take w = leEnc w n := by
    intro w; rw [List.take_append_of_le_length (by simp), List.take_of_length_le (by simp)]
  constructor <;> intro h
  · have : parseFloat (leEnc 4 n ++ rest) = some n := by
      rw [parseFloat, sliceTo, if_pos (by simp), tk]
      simp only [Option.bind_eq_bind, Option.bind_some, le32_eq, leEnc_length]
      rw [if_pos (by omega), List.take_of_length_le (by simp), leVal_leEnc (by omega)]
    simp [parseData, DATA_FLOAT, DATA_INT, DATA_VARCHAR, DATA_CHAR, DATA_FIXBINARY, DATA_BINARY, this]
  · have : parseDouble (leEnc 8 n ++ rest) = some n := by
      rw [parseDouble, sliceTo, if_pos (by simp), tk]
      simp only [Option.bind_eq_bind, Option.bind_some, le64_eq, leEnc_length]
      rw [if_pos (by omega), List.take_of_length_le (by simp), leVal_leEnc (by omega)]
    simp [parseData, DATA_DOUBLE, DATA_FLOAT, DATA_INT, DATA_VARCHAR, DATA_CHAR, DATA_FIXBINARY, DATA_BINARY, this]

/-- the bit pattern of -0.0 -/
example : (0x80000000 : Nat) < 2 ^ 32 ∧ leEnc 4 0x80000000 = [0, 0, 0, 0x80] := by decide

end Verif.Props
