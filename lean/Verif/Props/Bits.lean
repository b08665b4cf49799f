import Verif.Props.DataValues
import Verif.Props.Own
/-!
# C101: BIT columns
-/

set_option linter.unusedSimpArgs false

namespace Verif.Props
open Verif Spec

/-- a column BIT(m) whose values take `w` bytes, as the dictionary describes it -/
def IsBit (c : Column) (w : Nat) : Prop := c.ftype = DATA_FIXBINARY ∧ c.mtype = MYSQL_TYPE_BIT ∧ c.len = w ∧ c.isBinary = false

/-- The value `n` is decoded, and what is printed for it in a REPLACE statement is read as the bit value `n`. -/
def BitPrinted (env : Env) (c : Column) (w n : Nat) (rest : Bytes) (out : Out) : Prop :=
  ∃ c' g, decodeCell env c (.val (beEnc w n)) rest out = .ok c' out ∧ Reads (valueText env.ff c') g ∧ evalExpr g = some (.bits n)

/-- What a server makes of a string that is assigned to a BIT column: the number that its bytes are. -/
def bitStore (s : Bytes) : Nat := beVal s

/-- The value `n` is decoded by `ParseData`, as it stands in an undo record, and in the UPDATE statement a string is assigned to the column that
the server stores as `n`. -/
def BitAssigned (env : Env) (c : Column) (w n : Nat) (rest : Bytes) (out : Out) : Prop :=
  ∃ v b s, parseData env c.ftype c.mtype (beEnc w n ++ rest) w (getFixedLength c.ftype c.len) c.isUnsigned c.isBinary out = .ok (v, b) out ∧
    setText env.ff ⟨c.name, v⟩ = b! "`" ++ c.name ++ b! "`='" ++ s ++ b! "'" ∧ bitStore s = n

/-- **C101**, as stated: every value of every BIT column is printed as a value that the server takes for it, by both commands. -/
def C101_statement : Prop :=
  ∀ (env : Env) (c : Column) (w n : Nat) (rest : Bytes) (out : Out), IsBit c w → 1 ≤ w → w ≤ 8 → n < 256 ^ w → 3 ≤ rest.length →
    BitPrinted env c w n rest out ∧ BitAssigned env c w n rest out

/-- **C101, exactly, for the data command.** The values 0 and 1 are printed right, if the column does not take 5, 6 or 7 bytes; all others are
not. -/
theorem C101_iff (env : Env) (c : Column) (w n : Nat) (rest : Bytes) (out : Out) (hc : IsBit c w) (h1 : 1 ≤ w) (h8 : w ≤ 8) (hn : n < 256 ^ w)
    (hr : 3 ≤ rest.length) : BitPrinted env c w n rest out ↔ n < 2 ∧ w ∉ [5, 6, 7] := by
  obtain ⟨e1, e2, e3, e4⟩ := hc
  have hof : (TVal.bit w n).Of c := ⟨e1, e2, e3⟩
  have hf : (TVal.bit w n).Fits env.zone := ⟨h1, h8, hn⟩
  constructor
  · rintro ⟨c', g, g1, g2, g3⟩
    rcases item_seen env c c rfl (by rw [e4]; nofun) (fun _ => e1) _ hof hf trivial rest hr out with h | ⟨c'', o, h3, _, h4, h5⟩
    · rw [show (TVal.bit w n).enc = beEnc w n from rfl, g1] at h
      cases h
    · rw [show (TVal.bit w n).enc = beEnc w n from rfl, g1] at h3
      cases h3
      rcases h5 with ⟨h5, rfl⟩ | h5
      · refine ⟨?_, ?_⟩
        · rcases value_fate env.ff c' with ⟨toks, k1, _, _, k4⟩ | hno
          · cases reads_unique g2 k1
            exact k4 _ (.bit n) h4 g3 rfl
          · have h6 := hno (b! ")")
            rw [g2 (b! ")") (.inr rfl), show lex (b! ")") = some [.sym 41] by decide] at h6
            cases h6
        · have h5 : w ∈ [1, 2, 4, 8] ∨ (w = 3 ∧ n < 2 ^ 22) := h5
          simp only [List.mem_cons, List.not_mem_nil, or_false] at h5 ⊢
          omega
      · exact absurd (rfl : Denotes env.ff (.bits n) (.bit n)) (apart_denotes env.ff c' g _ o _ h4 g2 g3 h5)
  · rintro ⟨h2, h5⟩
    simp only [List.mem_cons, List.not_mem_nil, or_false] at h5
    have hd : TVal.Decodable (.bit w n) := by
      show w ∈ [1, 2, 4, 8] ∨ (w = 3 ∧ n < 2 ^ 22)
      simp only [List.mem_cons, List.not_mem_nil, or_false]
      omega
    obtain ⟨c', k1, _, k3⟩ := decode_item env c c rfl (by rw [e4]; nofun) (fun _ => e1) _ hof hf hd rest hr out
    obtain ⟨g, v, k4, _, _, k5, k6⟩ := valueText_user env.ff c' (.bit n) k3 h2
    refine ⟨c', g, k1, k4, ?_⟩
    rw [k5]
    cases v with
    | bits m => cases (k6 : m = n); rfl
    | _ => exact k6.elim

/-- the bytes of a decimal numeral, as a number -/
theorem bitStore_dec (n : Nat) : bitStore (dec n) = if n < 10 then 48 + n else 256 * bitStore (dec (n / 10)) + 48 + n % 10 := by
  have key : ∀ k : Nat, k < 10 → beVal [UInt8.ofNat (48 + k)] = 48 + k := by decide
  unfold bitStore
  rw [dec_eq]
  split
  · rename_i h
    exact key n h
  · rw [beVal_append, key _ (Nat.mod_lt _ (by decide))]
    simp only [List.length_cons, List.length_nil]
    omega

theorem bitStore_more (n : Nat) : n < bitStore (dec n) := by
  induction n using Nat.strongRecOn with
  | _ n ih =>
    rw [bitStore_dec]
    split
    · omega
    · have := ih (n / 10) (by omega)
      omega

/-- what is decoded: of three bytes, two bits are lost -/
theorem bit_decoded (env : Env) (c c' : Column) (w n : Nat) (rest : Bytes) (out : Out) (hc : IsBit c w) (h1 : 1 ≤ w) (h8 : w ≤ 8)
    (hn : n < 256 ^ w) (hr : 3 ≤ rest.length) (h : decodeCell env c (.val (beEnc w n)) rest out = .ok c' out) :
    c'.name = c.name ∧ c'.value = .uint (if w = 3 then n % 2 ^ 22 else n) := by
  obtain ⟨e1, e2, e3, e4⟩ := hc
  by_cases h3 : w = 3
  · subst h3
    have := C07_width3 env n rest 3 16 c.isUnsigned c.isBinary out (.bit _) hn
    have h4 : decodeCell env c (.val (TVal.bit 3 n).enc) rest out = .ok { c with value := .uint (n % 2 ^ 22) } out :=
      cell_ok (by simp only [TVal.enc, beEnc_length, e1, e2, e3]; exact this)
    rw [show (TVal.bit 3 n).enc = beEnc 3 n from rfl, h] at h4
    cases h4
    exact ⟨rfl, by rw [if_pos rfl]⟩
  · rw [if_neg h3]
    by_cases h5 : w ∈ [5, 6, 7]
    · rw [C95_bit_aborts env c (beEnc w n) rest
        (by simp only [List.mem_cons, List.not_mem_nil, or_false] at h5; rw [beEnc_length]; omega)
        (by simp only [List.mem_cons, List.not_mem_nil, or_false] at h5; rw [beEnc_length]; omega) e1 e2 (by rw [e3, beEnc_length])] at h
      cases h
    · simp only [List.mem_cons, List.not_mem_nil, or_false] at h5
      have hd : TVal.Decodable (.bit w n) := by
        show w ∈ [1, 2, 4, 8] ∨ (w = 3 ∧ n < 2 ^ 22)
        simp only [List.mem_cons, List.not_mem_nil, or_false]
        omega
      obtain ⟨c'', k1, k2, k3⟩ := decode_item env c c rfl (by rw [e4]; nofun) (fun _ => e1) (.bit w n) ⟨e1, e2, e3⟩ ⟨h1, h8, hn⟩ hd rest hr out
      rw [show (TVal.bit w n).enc = beEnc w n from rfl, h] at k1
      cases k1
      exact ⟨(skel_fields k2).1, k3.1⟩

/-- **C101, never, for the redo command.** Whatever the value, the string that is assigned to the column is stored as another one. -/
theorem C101_update_never (env : Env) (c : Column) (w n : Nat) (rest : Bytes) (out : Out) (hc : IsBit c w) (h1 : 1 ≤ w) (h8 : w ≤ 8)
    (hn : n < 256 ^ w) (hr : 3 ≤ rest.length) : ¬ BitAssigned env c w n rest out := by
  rintro ⟨v, b, s, g1, g2, g3⟩
  have g1 := cell_ok (v := .bit w n) (by rw [show (TVal.bit w n).enc = beEnc w n from rfl, beEnc_length]; exact g1)
  obtain ⟨_, hv⟩ := bit_decoded env c _ w n rest out hc h1 h8 hn hr g1
  have hv : v = _ := hv
  unfold setText at g2
  rw [hv] at g2
  simp only [ne_eq, reduceCtorEq, not_false_eq_true, if_true] at g2
  have g2 : dec (if w = 3 then n % 2 ^ 22 else n) = s := List.append_cancel_left (List.append_cancel_right g2)
  rw [← g2] at g3
  by_cases h3 : w = 3
  · rw [if_pos h3] at g3
    subst h3
    generalize hm : n % 2 ^ 22 = m at g3
    by_cases h4 : n = m
    · have := bitStore_more m
      omega
    · have h5 := bitStore_dec m
      have h6 := bitStore_dec (m / 10)
      have h7 := bitStore_dec (m / 10 / 10)
      have h9 := bitStore_more (m / 10 / 10 / 10)
      simp only [Nat.reducePow] at hn hm
      have hbig : 4194304 ≤ n := by clear h5 h6 h7 h9 g3; omega
      have d1 : m % 10 < 10 := Nat.mod_lt _ (by decide)
      have d2 : m / 10 % 10 < 10 := Nat.mod_lt _ (by decide)
      clear * - hbig d1 d2 h5 h6 h7 h9 hn g3
      generalize bitStore (dec m) = x at *
      generalize bitStore (dec (m / 10)) = y at *
      generalize bitStore (dec (m / 10 / 10)) = z at *
      generalize bitStore (dec (m / 10 / 10 / 10)) = u at *
      generalize m / 10 / 10 / 10 = m3 at *
      generalize m / 10 / 10 % 10 = r3 at *
      generalize m / 10 / 10 = m2 at *
      generalize m / 10 % 10 = r2 at *
      generalize m / 10 = m1 at *
      generalize m % 10 = r1 at *
      split at h5
      · omega
      · split at h6
        · omega
        · split at h7 <;> omega
  · rw [if_neg h3] at g3
    have := bitStore_more n
    omega

/-- **C101 (partial).** What remains: 0 and 1 in REPLACE statements, for columns that do not take 5, 6 or 7 bytes.  Missing: all other values
(`C101_iff`), all UPDATE statements (`C101_update_never`), and columns of 5 to 7 bytes, which abort the program (`C95_bit_aborts`). -/
theorem C101_flags_partial (env : Env) (c : Column) (w n : Nat) (rest : Bytes) (out : Out) (hc : IsBit c w) (h1 : 1 ≤ w) (h8 : w ≤ 8)
    (h5 : w ∉ [5, 6, 7]) (hn : n < 2) (hr : 3 ≤ rest.length) : BitPrinted env c w n rest out :=
  (C101_iff env c w n rest out hc h1 h8 (by
    have : 256 ^ 1 ≤ 256 ^ w := Nat.pow_le_pow_right (by decide) h1
    omega) hr).mpr ⟨hn, h5⟩

/-- NULL in a BIT column is printed as `bNULL`, the name of a column. -/
theorem C101_null (ff : FloatFmt) (c : Column) (w : Nat) (hc : IsBit c w) (hv : c.value = .str (b! "NULL") ∨ c.value = .nil) :
    valueText ff c = b! "bNULL" := by
  obtain ⟨_, e2, _, e4⟩ := hc
  unfold valueText
  have : ¬ (c.value ≠ .nil ∧ c.value ≠ .str (b! "NULL")) := by rcases hv with h | h <;> rw [h] <;> simp
  rw [if_pos e2, e4, if_neg this]
  rfl

def flagColumn : Column := { name := b! "flag", ftype := 3, mtype := 16, pos := 1, len := 1, isNull := false, tableId := 20 }

/-- the value 2 of a column BIT(8) -/
theorem C101_false : ¬ C101_statement := by
  intro h
  have := (C101_iff testEnv flagColumn 1 2 (zeros 3) [] ⟨rfl, rfl, rfl, rfl⟩ (by decide) (by decide) (by decide) (by decide)).mp
    (h testEnv flagColumn 1 2 (zeros 3) [] ⟨rfl, rfl, rfl, rfl⟩ (by decide) (by decide) (by decide) (by decide)).1
  exact absurd this.1 (by decide)

/-- the hypotheses of `C101_flags_partial` hold -/
example (env : Env) : BitPrinted env flagColumn 1 1 (zeros 3) [] :=
  C101_flags_partial env flagColumn 1 1 (zeros 3) [] ⟨rfl, rfl, rfl, rfl⟩ (by decide) (by decide) (by decide) (by decide) (by decide)

/-- `b'10'` is not printed for 2 but for 10: it stands for 2 -/
example (ff : FloatFmt) : valueText ff { flagColumn with value := .uint 10 } = b! "b'10'" ∧
    readReplace (b! "replace into `d`.`t` values (b'10');") = some ⟨b! "d", b! "t", [.bits 2]⟩ := ⟨by rfl, by decide⟩

end Verif.Props
