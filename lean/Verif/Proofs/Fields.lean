import Verif.Proofs.Compact
import Verif.Spec.Columns
/-! From the offsets array to the columns of a row. -/

set_option linter.unusedSimpArgs false

namespace Verif
open Spec

/-- offset of column `i` in the data -/
def offAt (row : Row) (i : Nat) : Nat := (rowData (row.take i)).length

theorem rowData_cons (e : SCol × Cell) (r : Row) : rowData (e :: r) = e.2.bytes ++ rowData r := by simp [rowData]

theorem rowData_take_drop (row : Row) (i : Nat) : rowData (row.take i) ++ rowData (row.drop i) = rowData row := by
  unfold rowData; rw [← List.flatMap_append, List.take_append_drop]

theorem endVals_get (row : Row) (offs i : Nat) (e : SCol × Cell) (h : row[i]? = some e) :
    (endVals offs row)[i]? = some (offs + offAt row i + e.2.bytes.length + cellFlag e.2) := by
  induction row generalizing offs i with
  | nil => simp at h
  | cons x r ih =>
    cases i with
    | zero =>
      simp at h; subst h
      simp [endVals, offAt, rowData]
    | succ i =>
      simp at h
      rw [endVals, List.getElem?_cons_succ, ih _ _ h]
      rw [offAt, offAt, List.take_succ_cons, rowData_cons, List.length_append]
      congr 1; omega

theorem offAt_le (row : Row) (i : Nat) (e : SCol × Cell) (h : row[i]? = some e) :
    offAt row i + e.2.bytes.length ≤ (rowData row).length := by
  have h1 := congrArg List.length (rowData_take_drop row i)
  have hi : i < row.length := (List.getElem?_eq_some_iff.mp h).1
  have h2 : row.drop i = e :: row.drop (i + 1) := by
    rw [List.drop_eq_getElem_cons hi]
    rw [(List.getElem?_eq_some_iff.mp h).2]
  rw [h2, rowData_cons, List.length_append, List.length_append] at h1
  unfold offAt; omega

/-- The offsets array with given contents. -/
def offsetsOf (a n e : Nat) (row : Row) (z : List Nat) : List Nat := [a, n, e] ++ endVals 0 row ++ z

theorem offsetsOf_base (a n e : Nat) (row : Row) (z : List Nat) :
    sliceFrom (offsetsOf a n e row z) 2 = some (e :: (endVals 0 row ++ z)) := by
  unfold sliceFrom offsetsOf; rw [if_pos (by simp)]; rfl

theorem offsetsOf_get (row : Row) (z : List Nat) (i : Nat) (x : SCol × Cell) (h : row[i]? = some x) :
    (endVals 0 row ++ z)[i]? = some (offAt row i + x.2.bytes.length + cellFlag x.2) := by
  have hi : i < row.length := (List.getElem?_eq_some_iff.mp h).1
  rw [List.getElem?_append_left (by rw [endVals_length]; exact hi), endVals_get row 0 i x h, Nat.zero_add]

theorem cellFlag_cases (x : Cell) : cellFlag x = 2 ^ 31 ∧ x = .null ∨ cellFlag x = 0 ∧ x ≠ .null ∨ cellFlag x = 2 ^ 30 ∧ x ≠ .null := by
  cases x <;> simp [cellFlag]

theorem mask30 (a : Nat) : a &&& ((1 <<< 30) - 1) = a % 2 ^ 30 := and_mask a 30

theorem offAt_succ (row : Row) (i : Nat) (x : SCol × Cell) (h : row[i]? = some x) :
    offAt row (i + 1) = offAt row i + x.2.bytes.length := by
  have hi := List.getElem?_eq_some_iff.mp h
  unfold offAt
  rw [List.take_succ_eq_append_getElem hi.1, hi.2]
  simp [rowData]

/-- length reported for a column -/
def cellLen : Cell → Nat
  | .null => 0xFFFFFFFF
  | x => x.bytes.length

theorem nthFieldOffs (a n e : Nat) (row : Row) (z : List Nat) (i : Nat) (x : SCol × Cell) (h : row[i]? = some x)
    (hlt : (rowData row).length < 2 ^ 16) :
    recGetNthFieldOffs (offsetsOf a n e row z) i = some (offAt row i, cellLen x.2) := by
  unfold recGetNthFieldOffs
  rw [offsetsOf_base]
  have hle := offAt_le row i x h
  have hoffs : (if i = 0 then pure 0 else do pure ((← (e :: (endVals 0 row ++ z))[i]?) &&& ((1 <<< 30) - 1)) : Option Nat) =
      some (offAt row i) := by
    cases i with
    | zero => simp [offAt, rowData]
    | succ j =>
      rw [if_neg (by omega), List.getElem?_cons_succ]
      have hi := (List.getElem?_eq_some_iff.mp h).1
      have hj : row[j]? = some row[j] := List.getElem?_eq_getElem (by omega)
      rw [offsetsOf_get row z j _ hj, ← offAt_succ row j _ hj]
      simp only [Option.bind_eq_bind, Option.bind_some, Option.pure_def]
      rw [mask30]
      rcases cellFlag_cases row[j].2 with ⟨hc, _⟩ | ⟨hc, _⟩ | ⟨hc, _⟩ <;> rw [hc] <;> exact congrArg some (by omega)
  have hmerge : ∀ (base : List Nat) (f : Nat → Option (Nat × Nat)),
      (if i = 0 then (pure 0 : Option Nat).bind f else base[i]?.bind fun w => (pure (w &&& ((1 <<< 30) - 1)) : Option Nat).bind f) =
      (if i = 0 then pure 0 else do pure ((← base[i]?) &&& ((1 <<< 30) - 1)) : Option Nat).bind f := by
    intro base f
    by_cases hi : i = 0
    · rw [if_pos hi, if_pos hi]
    · rw [if_neg hi, if_neg hi]
      cases base[i]? <;> rfl
  simp only [Option.bind_eq_bind, Option.bind_some]
  rw [hmerge, hoffs, Option.bind_some, List.getElem?_cons_succ, offsetsOf_get row z i x h, Option.bind_some]
  have hb := bit_eq_zero_iff (offAt row i + x.2.bytes.length + cellFlag x.2) 31
  have h31 : (1 <<< 31 : Nat) = 2 ^ 31 := by rw [Nat.shiftLeft_eq, Nat.one_mul]
  rw [h31]
  rcases cellFlag_cases x.2 with ⟨hc, hx⟩ | ⟨hc, hx⟩ | ⟨hc, hx⟩
  · rw [if_neg (by rw [hb, hc]; omega), hx]; rfl
  all_goals
    rw [if_pos (by rw [hb, hc]; omega), mask30, hc]
    have hcl : cellLen x.2 = x.2.bytes.length := by
      cases hx2 : x.2 with
      | null => exact absurd hx2 hx
      | val v => rfl
      | ext v => rfl
    rw [hcl]
    have e : (offAt row i + x.2.bytes.length + 0) % 2 ^ 30 = offAt row i + x.2.bytes.length := by omega
    have e' : (offAt row i + x.2.bytes.length + 2 ^ 30) % 2 ^ 30 = offAt row i + x.2.bytes.length := by omega
    first | rw [e] | rw [e']
    have : sub64 (offAt row i + x.2.bytes.length) (offAt row i) = x.2.bytes.length := by unfold sub64; omega
    rw [this]; rfl

/-- what the decoder sees of column `i` of a record whose data starts `rec` -/
theorem nthField (a n e : Nat) (row : Row) (z : List Nat) (i : Nat) (x : SCol × Cell) (h : row[i]? = some x)
    (hlt : (rowData row).length < 2 ^ 16) (post : Bytes) :
    recGetNthField (rowData row ++ post) (offsetsOf a n e row z) i =
      some (x.2.bytes ++ (rowData (row.drop (i + 1)) ++ post), cellLen x.2) := by
  unfold recGetNthField
  rw [nthFieldOffs a n e row z i x h hlt]
  simp only [Option.bind_eq_bind, Option.bind_some]
  have hle := offAt_le row i x h
  unfold sliceFrom
  rw [if_pos (by rw [List.length_append]; omega)]
  have hi : i < row.length := (List.getElem?_eq_some_iff.mp h).1
  have h2 : row.drop i = x :: row.drop (i + 1) := by
    rw [List.drop_eq_getElem_cons hi, (List.getElem?_eq_some_iff.mp h).2]
  have : (rowData row ++ post).drop (offAt row i) = x.2.bytes ++ (rowData (row.drop (i + 1)) ++ post) := by
    rw [← rowData_take_drop row i, h2, rowData_cons, List.append_assoc, offAt, List.drop_left' rfl, List.append_assoc]
  rw [this]
  rfl

theorem nthSize (a n e : Nat) (row : Row) (z : List Nat) (i : Nat) (x : SCol × Cell) (h : row[i]? = some x)
    (hlt : (rowData row).length < 2 ^ 16) :
    recOffsNthSize (offsetsOf a n e row z) i = some x.2.bytes.length := by
  unfold recOffsNthSize
  rw [offsetsOf_base]
  have hle := offAt_le row i x h
  simp only [Option.bind_eq_bind, Option.bind_some]
  cases i with
  | zero =>
    rw [if_pos rfl, show 1 + 0 = 0 + 1 from rfl, List.getElem?_cons_succ, offsetsOf_get row z 0 x h, Option.bind_some,
      mask30]
    have : offAt row 0 = 0 := by simp [offAt, rowData]
    rw [this]
    rcases cellFlag_cases x.2 with ⟨hc, _⟩ | ⟨hc, _⟩ | ⟨hc, _⟩ <;> rw [hc] <;> exact congrArg some (by omega)
  | succ j =>
    have hi := (List.getElem?_eq_some_iff.mp h).1
    have hj : row[j]? = some row[j] := List.getElem?_eq_getElem (by omega)
    rw [if_neg (by omega), show 1 + (j + 1) = (j + 1) + 1 by omega, List.getElem?_cons_succ, List.getElem?_cons_succ,
      offsetsOf_get row z _ x h, offsetsOf_get row z j _ hj, ← offAt_succ row j _ hj, Option.bind_some, Option.bind_some,
      mask30]
    unfold sub64
    rcases cellFlag_cases x.2 with ⟨hc, _⟩ | ⟨hc, _⟩ | ⟨hc, _⟩ <;>
      rcases cellFlag_cases row[j].2 with ⟨hd, _⟩ | ⟨hd, _⟩ | ⟨hd, _⟩ <;> rw [hc, hd] <;> exact congrArg some (by omega)

/-- The decoder's size check accepts the row: fixed-length columns have their length (or are NULL). -/
def SizeOk (c : Column) (x : Cell) : Prop :=
  getFixedLength c.ftype c.len ≠ 0 →
    (x.bytes.length = 0 ∧ c.isNull = true) ∨ c.len = 0 ∨ x.bytes.length = getFixedLength c.ftype c.len

theorem checkSize_true (a n e : Nat) (row : Row) (z : List Nat) (hlt : (rowData row).length < 2 ^ 16)
    (cols : List Column) (i : Nat) (h : All2 (fun c x => SizeOk c x.2) cols (row.drop i)) :
    checkFieldSizeAux (offsetsOf a n e row z) cols i = some true := by
  induction cols generalizing i with
  | nil => rfl
  | cons c cols ih =>
    generalize hr : row.drop i = r at h
    cases h with
    | @cons _ x _ r' hcx hrest =>
      have hx : row[i]? = some x := by
        have : (row.drop i)[0]? = some x := by rw [hr]; rfl
        rw [List.getElem?_drop] at this; simpa using this
      have hr' : r' = row.drop (i + 1) := by
        rw [← List.drop_drop, hr]; rfl
      rw [hr'] at hrest
      have ih := ih (i + 1) hrest
      unfold checkFieldSizeAux
      by_cases hg : getFixedLength c.ftype c.len ≠ 0
      · rw [if_pos hg, nthSize a n e row z i x hx hlt]
        simp only [Option.bind_eq_bind, Option.bind_some]
        rw [ih]
        have := hcx hg
        by_cases h1 : x.2.bytes.length = 0 ∧ c.isNull = true
        · rw [if_pos h1]
        · rw [if_neg h1, if_neg (by rintro ⟨h2, h3⟩; rcases this with h | h | h
                                    · exact h1 h
                                    · exact h2 h
                                    · exact h3 h)]
      · rw [if_neg hg, ih]

theorem sizeOk_of_agrees {c : Column} {s : SCol} {x : Cell} (ha : Agrees c s) (hf : Fits s x) : SizeOk c x := by
  intro hg
  obtain ⟨h1, h2⟩ := ha
  cases hs : s.storage with
  | var two => rw [hs] at h2; exact absurd h2.1 hg
  | fixed m =>
    rw [hs] at h2
    cases x with
    | null => left; exact ⟨rfl, by rw [h1]; exact hf⟩
    | val v => right; right; simp only [Fits, hs] at hf; rw [h2.1]; exact hf
    | ext v => simp only [Fits, hs] at hf; exact absurd hf.1 (by intro h; cases h)

/-! ## Decoding a row -/

theorem parseField_eq (env : Env) (a n e : Nat) (row : Row) (z : List Nat) (i : Nat) (x : SCol × Cell)
    (h : row[i]? = some x) (hlt : (rowData row).length < 2 ^ 16) (post : Bytes) (c : Column)
    (hpost : (rowData row).length + post.length < 0xFFFFFFFF) :
    parseField env (rowData row ++ post) (offsetsOf a n e row z) i c =
      decodeCell env c x.2 (rowData (row.drop (i + 1)) ++ post) := by
  unfold parseField
  rw [nthField a n e row z i x h hlt post]
  have hle := offAt_le row i x h
  have hdl : (rowData (row.drop (i + 1))).length ≤ (rowData row).length := by
    have := congrArg List.length (rowData_take_drop row (i + 1))
    rw [List.length_append] at this; omega
  rw [GoM.lift_some_bind]
  dsimp only
  cases hx : x.2 with
  | null =>
    rw [if_pos (show List.length (Cell.null.bytes ++ (rowData (row.drop (i + 1)) ++ post)) < cellLen .null by
      simp only [Cell.bytes, List.nil_append, List.length_append, cellLen]; omega)]
    rfl
  | val v =>
    rw [if_neg (show ¬ List.length ((Cell.val v).bytes ++ (rowData (row.drop (i + 1)) ++ post)) < cellLen (.val v) by
      simp only [Cell.bytes, List.length_append, cellLen]; omega)]
    rfl
  | ext v =>
    rw [if_neg (show ¬ List.length ((Cell.ext v).bytes ++ (rowData (row.drop (i + 1)) ++ post)) < cellLen (.ext v) by
      simp only [Cell.bytes, List.length_append, cellLen]; omega)]
    rfl

theorem parseRecordsLoop_eq (env : Env) (a n e : Nat) (row : Row) (z : List Nat) (hlt : (rowData row).length < 2 ^ 16)
    (post : Bytes) (hpost : (rowData row).length + post.length < 0xFFFFFFFF) (cols : List Column) (i : Nat)
    (hl : cols.length = (row.drop i).length) :
    parseRecordsLoop env (rowData row ++ post) (offsetsOf a n e row z) i cols =
      decodeRow env cols (row.drop i) post := by
  induction cols generalizing i with
  | nil => 
    cases hr : row.drop i with
    | nil => rfl
    | cons x r => rw [hr] at hl; simp at hl
  | cons c cols ih =>
    cases hr : row.drop i with
    | nil => rw [hr] at hl; simp at hl
    | cons x r' =>
      have hx : row[i]? = some x := by
        have : (row.drop i)[0]? = some x := by rw [hr]; rfl
        rw [List.getElem?_drop] at this; simpa using this
      have hr' : row.drop (i + 1) = r' := by
        rw [← List.drop_drop, hr]; rfl
      rw [parseRecordsLoop, decodeRow, parseField_eq env a n e row z i x hx hlt post c hpost, hr',
        ih (i + 1) (by rw [hr'] ; rw [hr] at hl; simpa using hl), hr']

/-- common part of both formats -/
theorem parseOne_of_offsets (env : Env) (tables : TableMap) (d : Bytes) (compact : Bool) (o : Nat) (s : PState)
    (e : Nat) (row : Row) (z : List Nat) (post : Bytes)
    (ho : recOffsets tables d compact o s.cols = some (some (offsetsOf 0 row.length e row z)))
    (hsz : All2 (fun c x => SizeOk c x.2) s.cols row) (hrow : row ≠ [])
    (hlt : (rowData row).length < 2 ^ 16) (hd : sliceFrom d o = some (rowData row ++ post))
    (hpost : (rowData row).length + post.length < 0xFFFFFFFF) :
    parseOne env tables d compact o s = rowResult s (decodeRow env s.cols row post s.out) := by
  have hsizes := checkSize_true 0 row.length e row z hlt s.cols 0 (by rw [List.drop_zero]; exact hsz)
  have hlen := all2_length hsz
  have hloop := parseRecordsLoop_eq env 0 row.length e row z hlt post hpost s.cols 0 (by rw [List.drop_zero]; exact hlen)
  rw [List.drop_zero] at hloop
  obtain ⟨k, hk⟩ : ∃ k, row.length = k + 1 := by
    cases row with
    | nil => exact absurd rfl hrow
    | cons x r => exact ⟨r.length, rfl⟩
  have hlast : row[k]? = some row[k] := List.getElem?_eq_getElem (by omega)
  have hds : recOffsDataSize (offsetsOf 0 row.length e row z) =
      some (offAt row k + row[k].2.bytes.length + cellFlag row[k].2) := by
    unfold recOffsDataSize recOffNFields
    rw [offsetsOf_base]
    have : (offsetsOf 0 row.length e row z)[1]? = some (k + 1) := by rw [hk]; rfl
    rw [this]
    simp only [Option.bind_eq_bind, Option.bind_some]
    rw [List.getElem?_cons_succ, offsetsOf_get row z k _ hlast]
  have hos : ∃ y, recOffsSize (offsetsOf 0 row.length e row z) = some y := by
    unfold recOffsSize recOffsExtraSize
    rw [hds, offsetsOf_base]
    exact ⟨_, rfl⟩
  obtain ⟨y, hos⟩ := hos
  unfold parseOne parseRecords checkFieldSize at *
  gom
  rw [ho]
  gom
  rw [hsizes]
  gom
  simp only [if_true]
  rw [hd]
  gom
  rw [hloop]
  cases hdr : decodeRow env s.cols row post s.out with
  | ok cs out => 
    simp only [rowResult]
    rw [hds]
    gom
    rw [hos]
    rfl
  | panic out => rfl
  | hang out => rfl

end Verif
