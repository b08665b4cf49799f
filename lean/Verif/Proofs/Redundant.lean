import Verif.Proofs.Fields
/-! Decoding of the REDUNDANT record header. -/

set_option linter.unusedSimpArgs false

namespace Verif
open Spec

/-- A REDUNDANT record as the decoder sees it: a NULL is taken for the bytes reserved for it. -/
def viewOld (row : List OldCell) : Row := row.map fun c => (⟨false, .fixed 0⟩, .val c.bytes)

theorem rowData_viewOld (row : List OldCell) : rowData (viewOld row) = oldData row := by
  induction row with
  | nil => rfl
  | cons c r ih =>
    have h1 : viewOld (c :: r) = (⟨false, .fixed 0⟩, .val c.bytes) :: viewOld r := rfl
    rw [h1, rowData_cons, ih]
    simp [oldData, Cell.bytes]

theorem viewOld_length (row : List OldCell) : (viewOld row).length = row.length := by simp [viewOld]

theorem beEnc_length' (w n : Nat) : (beEnc w n).length = w := by
  induction w generalizing n with
  | zero => rfl
  | succ w ih => simp [beEnc, ih]

theorem endInfos_length (w s : Nat) (row : List OldCell) : (endInfos w s row).length = w * row.length := by
  induction row generalizing s with
  | nil => rfl
  | cons c r ih =>
    simp only [endInfos, List.length_append, ih, beEnc_length', List.length_cons]
    rw [Nat.mul_add, Nat.mul_one]

theorem endInfos_append (w s : Nat) (a b : List OldCell) :
    endInfos w s (a ++ b) = endInfos w (s + (oldData a).length) b ++ endInfos w s a := by
  induction a generalizing s with
  | nil => simp [endInfos, oldData]
  | cons c r ih =>
    simp only [List.cons_append, endInfos, ih, List.append_assoc]
    have : s + c.bytes.length + (oldData r).length = s + (oldData (c :: r)).length := by
      simp [oldData]; omega
    rw [this]

theorem oldConv1_eq (n : Nat) (h : n < 256) : oldConv1 n = n % 128 := by
  have h31 : ((1 <<< 31 : Nat) &&& 0xffff) = 0 := by decide
  have hb := bit_eq_zero_iff n 7
  rw [show (2 : Nat) ^ 7 = 0x80 by decide] at hb
  unfold oldConv1
  dsimp only
  by_cases h7 : n &&& 0x80 ≠ 0
  · rw [if_pos h7, Nat.and_or_distrib_right, h31, Nat.or_zero, andNot64, Nat.and_assoc]
    have e : not64 0x80 &&& 0xffff = 0xff7f := by decide
    have e2 : n &&& 0xff7f = n &&& 0x7f := by
      have h3 : n = n &&& 0xff := by
        have : n &&& 0xff = n % 2 ^ 8 := and_mask n 8
        omega
      calc n &&& 0xff7f = (n &&& 0xff) &&& 0xff7f := by rw [← h3]
        _ = n &&& 0x7f := by rw [Nat.and_assoc, show (0xff &&& 0xff7f : Nat) = 0x7f by decide]
    rw [e, e2]
    exact and_mask n 7
  · rw [if_neg h7]
    rw [ne_eq, Decidable.not_not] at h7
    have h8 := hb.mp h7
    have : n &&& 0xffff = n % 2 ^ 16 := and_mask n 16
    omega

theorem and_low (n : Nat) (_h : n < 2 ^ 16) : ((n &&& not64 0x8000) &&& 0xffff) = n % 2 ^ 15 := by
  rw [Nat.and_assoc]
  have : not64 0x8000 &&& 0xffff = 2 ^ 15 - 1 := by decide
  rw [this, and_mask]

theorem oldConv2_eq (n : Nat) (h : n < 2 ^ 16) : oldConv2 n = n % 2 ^ 15 := by
  have hm : ∀ a : Nat, a &&& 0xffff = a % 2 ^ 16 := fun a => and_mask a 16
  have h31 : ((1 <<< 31 : Nat) &&& 0xffff) = 0 := by decide
  have h30 : ((1 <<< 30 : Nat) &&& 0xffff) = 0 := by decide
  have hb := bit_eq_zero_iff n 15
  have hb15 : (2 : Nat) ^ 15 = 0x8000 := by decide
  rw [hb15] at hb
  have step : ∀ a : Nat, (if a &&& 0x4000 ≠ 0 then (andNot64 a 0x8000) ||| (1 <<< 30) else a) &&& 0xffff =
      (if a &&& 0x4000 ≠ 0 then (a % 2 ^ 16) % 2 ^ 15 else a % 2 ^ 16) := by
    intro a
    by_cases ha : a &&& 0x4000 ≠ 0
    · rw [if_pos ha, if_pos ha, Nat.and_or_distrib_right, h30, Nat.or_zero, andNot64, Nat.and_assoc]
      have : not64 0x8000 &&& 0xffff = 2 ^ 15 - 1 := by decide
      rw [this, and_mask]
      omega
    · rw [if_neg ha, if_neg ha, hm]
  unfold oldConv2
  dsimp only
  rw [step]
  by_cases h15 : n &&& 0x8000 ≠ 0
  · rw [if_pos h15]
    have e : ((andNot64 n 0x8000) ||| (1 <<< 31)) % 2 ^ 16 = n % 2 ^ 15 := by
      rw [← hm, Nat.and_or_distrib_right, h31, Nat.or_zero]
      exact and_low n h
    rw [e]
    split <;> omega
  · rw [if_neg h15]
    have : n / 2 ^ 15 % 2 = 0 := by
      rw [hb15]
      rw [ne_eq, Decidable.not_not] at h15
      exact hb.mp h15
    split <;> omega

theorem readW_at (w : Nat) (d : Bytes) (pos : Nat) (a e b : Bytes) (hd : d = a ++ e ++ b) (hp : a.length = pos)
    (he : e.length = w) : readW w d pos = some (beVal e) := by
  subst hd hp he
  exact readW_append a e b

/-- the end information of column `i` -/
theorem endInfo_read (d pre tail : Bytes) (w : Nat) (row : List OldCell) (i : Nat) (c : OldCell)
    (hd : d = pre ++ endInfos w 0 row ++ tail) (h : row[i]? = some c)
    (hlt : (oldData row).length < 2 ^ (8 * w - 1)) (hw : 1 ≤ w) :
    readW w d (pre.length + w * row.length - w * (i + 1)) =
      some ((oldData (row.take i)).length + c.bytes.length + if c.null then 2 ^ (8 * w - 1) else 0) := by
  have hi := List.getElem?_eq_some_iff.mp h
  have hsplit : row = row.take i ++ c :: row.drop (i + 1) := by
    rw [← hi.2, ← List.drop_eq_getElem_cons hi.1, List.take_append_drop]
  have hle : (oldData (row.take i)).length + c.bytes.length ≤ (oldData row).length := by
    have : oldData row = oldData (row.take i) ++ (c.bytes ++ oldData (row.drop (i + 1))) := by
      conv => lhs; rw [hsplit]
      simp [oldData]
    rw [this]; simp
  have hinfo : endInfos w 0 row = endInfos w ((oldData (row.take i)).length + c.bytes.length) (row.drop (i + 1)) ++
      beEnc w ((oldData (row.take i)).length + c.bytes.length + if c.null then 2 ^ (8 * w - 1) else 0) ++
      endInfos w 0 (row.take i) := by
    conv => lhs; rw [hsplit]
    rw [endInfos_append, Nat.zero_add]
    simp only [endInfos]
  have hval : (oldData (row.take i)).length + c.bytes.length + (if c.null then 2 ^ (8 * w - 1) else 0) < 256 ^ w := by
    have : (256 : Nat) ^ w = 2 ^ (8 * w - 1) + 2 ^ (8 * w - 1) := by
      rw [show (256 : Nat) = 2 ^ 8 by rfl, ← Nat.pow_mul, ← Nat.two_mul, Nat.mul_comm 2, ← Nat.pow_succ]
      congr 1; omega
    rw [this]
    split <;> omega
  rw [readW_at w d _ (pre ++ endInfos w ((oldData (row.take i)).length + c.bytes.length) (row.drop (i + 1)))
    (beEnc w ((oldData (row.take i)).length + c.bytes.length + if c.null then 2 ^ (8 * w - 1) else 0))
    (endInfos w 0 (row.take i) ++ tail)
    (by rw [hd, hinfo]; simp only [List.append_assoc])
    (by
      rw [List.length_append, endInfos_length, List.length_drop]
      have : w * (row.length - (i + 1)) = w * row.length - w * (i + 1) := Nat.mul_sub w _ _
      rw [this]
      have : w * (i + 1) ≤ w * row.length := Nat.mul_le_mul_left w hi.1
      omega)
    (beEnc_length' _ _)]
  rw [beVal_beEnc hval]

theorem oldLoop_eq (info : Nat → Option Nat) (conv : Nat → Nat) (row : List OldCell) (hrow : List OldCell)
    (i k : Nat) (A : List Nat) (hA : A.length = 3 + i) (hk : row.length ≤ k) (hsub : hrow.drop i = row)
    (hinfo : ∀ j c, hrow[j]? = some c → ∃ x, info j = some x ∧
      conv x = (oldData (hrow.take j)).length + c.bytes.length) :
    oldLoop info conv row.length i (A ++ List.replicate k 0) =
      some (A ++ endVals (oldData (hrow.take i)).length (viewOld row) ++ List.replicate (k - row.length) 0) := by
  induction row generalizing i k A with
  | nil => simp [oldLoop, viewOld, endVals]
  | cons c r ih =>
    have hi : hrow[i]? = some c := by
      have : (hrow.drop i)[0]? = some c := by rw [hsub]; rfl
      rw [List.getElem?_drop] at this; simpa using this
    obtain ⟨x, hx, hc⟩ := hinfo i c hi
    obtain ⟨k, rfl⟩ : ∃ k', k = k' + 1 := ⟨k - 1, by simp at hk; omega⟩
    rw [List.length_cons, oldLoop, hx]
    simp only [Option.bind_eq_bind, Option.bind_some]
    rw [List.replicate_succ, show 2 + (1 + i) = A.length by omega, setIdx_append]
    simp only [Option.bind_some]
    have hAv : A ++ (conv x) :: List.replicate k 0 = (A ++ [conv x]) ++ List.replicate k 0 := by simp
    rw [hAv, ih (i + 1) k (A ++ [conv x]) (by simp; omega) (by simp at hk; omega)
      (by rw [← List.drop_drop, hsub]; rfl)]
    have hview : viewOld (c :: r) = (⟨false, .fixed 0⟩, .val c.bytes) :: viewOld r := rfl
    have hlt := List.getElem?_eq_some_iff.mp hi
    have hnext : (oldData (hrow.take (i + 1))).length = (oldData (hrow.take i)).length + c.bytes.length := by
      rw [List.take_succ_eq_append_getElem hlt.1, hlt.2]; simp [oldData]
    rw [hview, endVals, hc, hnext]
    simp [cellFlag, Cell.bytes]

/-- The header of a REDUNDANT record with the field lengths of `row` ends at `o`; nothing is said about the data. -/
def RedundantHead (d : Bytes) (o w : Nat) (row : List OldCell) : Prop :=
  ∃ pre h3 flag h2 post, h3.length = 3 ∧ h2.length = 2 ∧ flag.toNat % 2 = (if w = 1 then 1 else 0) ∧
    d = pre ++ endInfos w 0 row ++ h3 ++ [flag] ++ h2 ++ post ∧
    o = (pre ++ endInfos w 0 row ++ h3 ++ [flag] ++ h2).length

theorem redundantHead_of_at {d : Bytes} {o w : Nat} {row : List OldCell} (h : RedundantAt d o w row) :
    RedundantHead d o w row := by
  obtain ⟨pre, h3, flag, h2, post, hl3, hl2, hfl, hd, ho⟩ := h
  exact ⟨pre, h3, flag, h2, oldData row ++ post, hl3, hl2, hfl, by rw [hd]; simp, ho⟩

/-- the whole offsets array of a REDUNDANT record -/
theorem initOffsetsOld_head (d : Bytes) (o w : Nat) (row : List OldCell) (h : RedundantHead d o w row) (hw : w = 1 ∨ w = 2)
    (hd64 : d.length < 2 ^ 64)
    (hlt : (oldData row).length < if w = 1 then 2 ^ 7 else 2 ^ 14) (h3 : 3 ≤ row.length) :
    ibRecInitOffsetsOld d o (List.replicate (row.length * 2) 0) row.length =
      some (offsetsOf 0 row.length (6 + w * row.length) (viewOld row) (List.replicate (row.length - 3) 0)) := by
  obtain ⟨pre, hd3, flag, hd2, post, hl3, hl2, hfl, hd, ho⟩ := h
  have hol : o = pre.length + w * row.length + 6 := by
    rw [ho]; simp [endInfos_length]; omega
  have hole : o ≤ d.length := by rw [hd, ho]; simp
  have hsub : (pre ++ endInfos w 0 row ++ hd3).length = sub64 o 3 := by
    rw [List.length_append, List.length_append, endInfos_length, hl3]
    unfold sub64; omega
  have hflag : recGet1byteOffsFlag d o = some (if w = 1 then 1 else 0) := by
    unfold recGet1byteOffsFlag recGetBitField1
    rw [read1_eq, readW_at 1 d _ (pre ++ endInfos w 0 row ++ hd3) [flag] (hd2 ++ post)
      (by rw [hd]; simp) hsub rfl]
    simp only [Option.bind_eq_bind, Option.bind_some, Option.pure_def]
    have : beVal [flag] = flag.toNat := by simp [beVal]
    rw [this]
    have hm : flag.toNat &&& 0x1 = flag.toNat % 2 ^ 1 := and_mask _ 1
    rw [hm, Nat.shiftRight_zero, ← hfl]
  obtain ⟨k, hk⟩ : ∃ k, row.length * 2 = 3 + k := ⟨row.length * 2 - 3, by omega⟩
  have hrep : List.replicate (row.length * 2) 0 = [0, 0, 0] ++ List.replicate k 0 := by
    rw [hk, Nat.add_comm, List.replicate_succ, List.replicate_succ, List.replicate_succ]; rfl
  have s1 : setIdx ([0, 0, 0] ++ List.replicate k 0) 2 0 = some ([0, 0, 0] ++ List.replicate k 0) := by
    unfold setIdx; rw [if_pos (by simp)]; rfl
  have s2 : setIdx ([0, 0, 0] ++ List.replicate k 0) 1 row.length =
      some ([0, row.length, 0] ++ List.replicate k 0) := by
    unfold setIdx; rw [if_pos (by simp)]; rfl
  have s3 : ∀ x, setIdx ([0, row.length, 0] ++ List.replicate k 0) 2 x =
      some ([0, row.length, x] ++ List.replicate k 0) := by
    intro x
    unfold setIdx; rw [if_pos (by simp)]; rfl
  have hlt' : (oldData row).length < 2 ^ (8 * w - 1) := by
    rcases hw with rfl | rfl
    · rw [if_pos rfl] at hlt; exact hlt
    · rw [if_neg (by omega)] at hlt
      exact Nat.lt_trans hlt (Nat.pow_lt_pow_right (by omega) (by omega))
  have hread : ∀ j c, row[j]? = some c → readW w d (o - 6 - w * (j + 1)) =
      some ((oldData (row.take j)).length + c.bytes.length + if c.null then 2 ^ (8 * w - 1) else 0) := by
    intro j c hj
    have := endInfo_read d pre (hd3 ++ [flag] ++ hd2 ++ post) w row j c
      (by rw [hd]; simp) hj hlt' (by omega)
    rw [← this, show o - 6 - w * (j + 1) = pre.length + w * row.length - w * (j + 1) by omega]
  have hle : ∀ j c, row[j]? = some c → (oldData (row.take j)).length + c.bytes.length ≤ (oldData row).length := by
    intro j c hj
    have hj' := List.getElem?_eq_some_iff.mp hj
    have hsplit : row = row.take j ++ c :: row.drop (j + 1) := by
      rw [← hj'.2, ← List.drop_eq_getElem_cons hj'.1, List.take_append_drop]
    have : oldData row = oldData (row.take j) ++ (c.bytes ++ oldData (row.drop (j + 1))) := by
      conv => lhs; rw [hsplit]
      simp [oldData]
    rw [this]; simp
  have hunf : ∀ offs n, ibRecInitOffsetsOld d o offs n = (setIdx offs 2 0).bind fun a => (setIdx a 1 n).bind fun b =>
      (recGet1byteOffsFlag d o).bind fun num =>
        if num ≠ 0 then (setIdx b 2 (6 + n)).bind fun c => oldLoop (fun i => rec1GetFieldEndInfo d o i) oldConv1 n 0 c
        else (setIdx b 2 (6 + 2 * n)).bind fun c => oldLoop (fun i => rec2GetFieldEndInfo d o i) oldConv2 n 0 c :=
    fun _ _ => rfl
  rw [hunf, hrep, s1, Option.bind_some, s2, Option.bind_some, hflag, Option.bind_some]
  have hbase : (oldData (row.take 0)).length = 0 := by simp [oldData]
  have hjlt : ∀ j c, row[j]? = some c → w * (j + 1) ≤ w * row.length := by
    intro j c hj
    exact Nat.mul_le_mul_left w (List.getElem?_eq_some_iff.mp hj).1
  rcases hw with rfl | rfl
  · rw [if_pos (by decide), s3, Option.bind_some]
    have := oldLoop_eq (fun i => rec1GetFieldEndInfo d o i) oldConv1 row row 0 k [0, row.length, 6 + row.length] rfl
      (by omega) rfl (by
        intro j c hj
        refine ⟨(oldData (row.take j)).length + c.bytes.length + if c.null then 2 ^ 7 else 0, ?_, ?_⟩
        · have hh := hread j c hj
          have hj2 := hjlt j c hj
          show read1 d (sub64 o (6 + j + 1)) = _
          have hs : sub64 o (6 + j + 1) = o - 6 - 1 * (j + 1) := by unfold sub64; omega
          rw [read1_eq, hs]
          exact hh
        · have := hle j c hj
          rw [if_pos rfl] at hlt
          rw [oldConv1_eq _ (by split <;> omega)]
          split <;> omega)
    rw [this, hbase, Nat.one_mul]
    unfold offsetsOf
    rw [show k - row.length = row.length - 3 by omega]
  · rw [if_neg (by decide), s3, Option.bind_some]
    have := oldLoop_eq (fun i => rec2GetFieldEndInfo d o i) oldConv2 row row 0 k [0, row.length, 6 + 2 * row.length] rfl
      (by omega) rfl (by
        intro j c hj
        refine ⟨(oldData (row.take j)).length + c.bytes.length + if c.null then 2 ^ 15 else 0, ?_, ?_⟩
        · have hh := hread j c hj
          have hj2 := hjlt j c hj
          show read2 d (sub64 o (6 + 2 * j + 2)) = _
          have hs : sub64 o (6 + 2 * j + 2) = o - 6 - 2 * (j + 1) := by unfold sub64; omega
          rw [read2_eq, hs]
          exact hh
        · have := hle j c hj
          rw [if_neg (by omega)] at hlt
          rw [oldConv2_eq _ (by split <;> omega)]
          split <;> omega)
    rw [this, hbase]
    unfold offsetsOf
    rw [show k - row.length = row.length - 3 by omega]

theorem initOffsetsOld_eq (d : Bytes) (o w : Nat) (row : List OldCell) (h : RedundantAt d o w row) (hw : w = 1 ∨ w = 2)
    (hd64 : d.length < 2 ^ 64)
    (hlt : (oldData row).length < if w = 1 then 2 ^ 7 else 2 ^ 14) (h3 : 3 ≤ row.length) :
    ibRecInitOffsetsOld d o (List.replicate (row.length * 2) 0) row.length =
      some (offsetsOf 0 row.length (6 + w * row.length) (viewOld row) (List.replicate (row.length - 3) 0)) :=
  initOffsetsOld_head d o w row (redundantHead_of_at h) hw hd64 hlt h3

end Verif
