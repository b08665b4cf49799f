import Verif.Proofs.Maps
import Verif.Proofs.Arith
import Verif.Model.Dict
import Verif.Spec.Dictionary
import Verif.Spec.Record
import Mathlib.Data.List.Induction
/-!
# Lemmas about the dictionary loader: rows
-/

namespace Verif
open Spec

theorem rowUint_of {row : List Column} {i n : Nat} (h : valueAt row i = some (.uint n)) : rowUint row i = some n := by
  unfold valueAt at h
  unfold rowUint
  rw [List.getElem?_map] at h
  cases hr : row[i]? with
  | none => rw [hr] at h; cases h
  | some c =>
    rw [hr] at h
    injection h with h
    show c.value.asUint = _
    have h : c.value = _ := h
    rw [h]; rfl

theorem rowStr_of {row : List Column} {i : Nat} {b : Bytes} (h : valueAt row i = some (.str b)) : rowStr row i = some b := by
  unfold valueAt at h
  unfold rowStr
  rw [List.getElem?_map] at h
  cases hr : row[i]? with
  | none => rw [hr] at h; cases h
  | some c =>
    rw [hr] at h
    injection h with h
    show c.value.asStr = _
    have h : c.value = _ := h
    rw [h]; rfl

/-! ## Splitting at `/` -/

theorem splitSlash_head (s : Bytes) : ∃ t, splitSlash s = s.takeWhile (· ≠ 47) :: t ∧
    (47 ∈ s → ∃ t', t = ((s.dropWhile (· ≠ 47)).drop 1).takeWhile (· ≠ 47) :: t') := by
  induction s with
  | nil => exact ⟨[], rfl, by simp⟩
  | cons c s ih =>
    obtain ⟨t, h1, h2⟩ := ih
    unfold splitSlash
    by_cases hc : c = 47
    · rw [if_pos hc]
      refine ⟨splitSlash s, by simp [hc], ?_⟩
      intro _
      refine ⟨t, ?_⟩
      rw [h1]
      simp [hc]
    · rw [if_neg hc, h1]
      refine ⟨t, by simp [hc], ?_⟩
      intro hm
      rcases List.mem_cons.mp hm with hm | hm
      · exact absurd hm.symm hc
      · obtain ⟨t', h3⟩ := h2 hm
        exact ⟨t', by rw [h3]; simp [hc]⟩

theorem addTableRow_eq (tables : TableMap) (row : List Column) (r : TableRow) (h : IsTableRow row r) :
    addTableRow tables row = some (tables.put r.id (tableOf r)) := by
  obtain ⟨h0, h3, h9⟩ := h
  unfold addTableRow
  rw [rowStr_of h0, rowUint_of h3, rowUint_of h9]
  obtain ⟨t, e1, e2⟩ := splitSlash_head r.name
  unfold tableOf splitName
  by_cases hm : 47 ∈ r.name
  · obtain ⟨t', e2⟩ := e2 hm
    have hc : r.name.contains 47 = true := by simpa using hm
    simp only [Option.bind_eq_bind, Option.bind_some, hc, if_true, e1, e2]
    rw [if_pos hm]
    rfl
  · have hc : r.name.contains 47 = false := by simpa using hm
    simp only [Option.bind_eq_bind, Option.bind_some, hc]
    rw [if_neg hm]
    rfl

/-! ## Folding over rows -/

theorem foldRows_append {β : Type} (f : β → List Column → Option β) (b : β) (l m : List (List Column)) :
    foldRows f b (l ++ m) = (foldRows f b l).bind fun b' => foldRows f b' m := by
  induction l generalizing b with
  | nil => rfl
  | cons r l ih =>
    show (f b r).bind _ = ((f b r).bind _).bind _
    cases f b r with
    | none => rfl
    | some b' => exact ih b'

/-- a fold over rows that never fails is a fold over the typed rows -/
theorem foldRows_typed {β ρ : Type} (f : β → List Column → Option β) (g : β → ρ → β) (Is : List Column → ρ → Prop)
    (h : ∀ b row r, Is row r → f b row = some (g b r)) (rows : List (List Column)) (rs : List ρ) (ha : All2 Is rows rs) (b : β) :
    foldRows f b rows = some (rs.foldl g b) := by
  induction ha generalizing b with
  | nil => rfl
  | cons h1 _ ih =>
    show (f b _).bind _ = _
    rw [h b _ _ h1]
    exact ih _

theorem lastWith_append {α : Type} (p : α → Bool) (l : List α) (a : α) :
    lastWith p (l ++ [a]) = if p a then some a else lastWith p l := by
  unfold lastWith
  rw [List.reverse_append, List.reverse_singleton, List.singleton_append, List.find?_cons]
  cases p a <;> rfl

/-- repeated assignment: the last one counts -/
theorem foldl_put {α ρ : Type} (key : ρ → Nat) (val : ρ → α) (rs : List ρ) (m : GoMap α) (k : Nat) :
    (rs.foldl (fun m r => m.put (key r) (val r)) m).get? k =
      ((lastWith (fun r => key r == k) rs).map val).or (m.get? k) := by
  induction rs using List.reverseRecOn with
  | nil => rfl
  | append_singleton rs r ih =>
    rw [List.foldl_append, List.foldl_cons, List.foldl_nil, GoMap.get?_put, lastWith_append, ih]
    by_cases h : k = key r
    · rw [if_pos h, if_pos (by simp [h])]; rfl
    · rw [if_neg h, if_neg (by simpa using fun e => h e.symm)]

theorem foldl_put_WF {α ρ : Type} (key : ρ → Nat) (val : ρ → α) (rs : List ρ) (m : GoMap α) (h : m.WF) :
    (rs.foldl (fun m r => m.put (key r) (val r)) m).WF := by
  induction rs generalizing m with
  | nil => exact h
  | cons r rs ih => exact ih _ (GoMap.put_WF h _ _)

/-! ## Columns -/

theorem and_flag (n k : Nat) : (n &&& 2 ^ k == 0) = !bit n k := by
  have h := bit_eq_zero_iff n k
  unfold bit
  have h2 : n / 2 ^ k % 2 = 0 ∨ n / 2 ^ k % 2 = 1 := by omega
  rcases h2 with h2 | h2
  · rw [h2]; simp [h.mpr h2]
  · rw [h2]
    have : ¬ (n &&& 2 ^ k = 0) := fun hh => by have := h.mp hh; omega
    simp [this]

theorem and_bit_ne (n k : Nat) : (n &&& 2 ^ k != 0) = bit n k := by
  have := and_flag n k
  rw [bne, this, Bool.not_not]

/-- the column as the tool records it: the binary flag only for BLOBs -/
def toolColumn (r : ColumnRow) : Column := { columnOf r with isBinary := r.mtype == 5 && bit r.prtype DATA_BINARY_TYPE }

/-- the effect of a SYS_COLUMNS row -/
def addCol (tables : TableMap) (r : ColumnRow) : TableMap :=
  match tables.get? r.tableId with
  | none => tables
  | some t => tables.put r.tableId { t with nullCount := t.nullCount + (!bit r.prtype DATA_NOT_NULL).toNat,
                                            columns := t.columns ++ [toolColumn r] }

theorem addColumnRow_eq (tables : TableMap) (row : List Column) (r : ColumnRow) (h : IsColumnRow row r) :
    addColumnRow tables row = some (addCol tables r) := by
  obtain ⟨h0, h1, h4, h5, h6, h7⟩ := h
  unfold addColumnRow addCol
  rw [rowUint_of h0, rowUint_of h1, rowStr_of h4, rowUint_of h5, rowUint_of h6, rowUint_of h7]
  simp only [Option.bind_eq_bind, Option.bind_some]
  cases tables.get? r.tableId with
  | none => rfl
  | some t =>
    dsimp only
    have e1 : (r.prtype &&& 256 == 0) = !bit r.prtype DATA_NOT_NULL := and_flag r.prtype 8
    have e2 : (r.prtype &&& 512 != 0) = bit r.prtype DATA_UNSIGNED := and_bit_ne r.prtype 9
    have e3 : (r.prtype &&& 1024 != 0) = bit r.prtype DATA_BINARY_TYPE := and_bit_ne r.prtype 10
    have e4 : r.prtype &&& 255 = r.prtype % 256 := and_mask r.prtype 8
    rw [e1, e2, e3, e4]
    have e5 : (!bit r.prtype DATA_NOT_NULL).toNat = if (!bit r.prtype DATA_NOT_NULL) = true then 1 else 0 := by
      cases bit r.prtype DATA_NOT_NULL <;> rfl
    have e6 : (if (!bit r.prtype DATA_NOT_NULL) = true then t.nullCount + 1 else t.nullCount) =
        t.nullCount + (!bit r.prtype DATA_NOT_NULL).toNat := by rw [e5]; split <;> rfl
    rw [e6]
    unfold toolColumn columnOf
    by_cases h : r.mtype = 4
    · rw [if_neg (by simp [h, DATA_BINARY]), if_pos h]; rfl
    · rw [if_pos (by simpa [DATA_BINARY] using h), if_neg h]; rfl

/-- the number of nullable columns among rows -/
def nullableRows (rs : List ColumnRow) : Nat := (rs.filter fun r => !bit r.prtype DATA_NOT_NULL).length

theorem addCol_get (tables : TableMap) (r : ColumnRow) (id : Nat) :
    (addCol tables r).get? id = (tables.get? id).map fun t =>
      if r.tableId = id then { t with nullCount := t.nullCount + (!bit r.prtype DATA_NOT_NULL).toNat,
                                      columns := t.columns ++ [toolColumn r] } else t := by
  unfold addCol
  cases ht : tables.get? r.tableId with
  | none =>
    by_cases h : r.tableId = id
    · subst h; rw [ht]; rfl
    · simp only [if_neg h]; cases tables.get? id <;> rfl
  | some t =>
    dsimp only
    rw [GoMap.get?_put]
    by_cases h : r.tableId = id
    · subst h; rw [if_pos rfl, ht]; simp
    · rw [if_neg (fun e => h e.symm)]; simp only [if_neg h]; cases tables.get? id <;> rfl

theorem addCols_get (rs : List ColumnRow) (tables : TableMap) (id : Nat) :
    (rs.foldl addCol tables).get? id = (tables.get? id).map fun t =>
      { t with nullCount := t.nullCount + nullableRows (rs.filter (·.tableId == id)),
               columns := t.columns ++ (rs.filter (·.tableId == id)).map toolColumn } := by
  induction rs generalizing tables with
  | nil => simp [nullableRows]
  | cons r rs ih =>
    rw [List.foldl_cons, ih, addCol_get, Option.map_map]
    congr 1
    funext t
    by_cases h : r.tableId = id
    · simp only [Function.comp_apply, if_pos h]
      rw [List.filter_cons_of_pos (by simp [h])]
      congr 1
      · rw [List.append_assoc]; rfl
      · unfold nullableRows
        cases hb : bit r.prtype DATA_NOT_NULL
        · rw [List.filter_cons_of_pos (by simp [hb])]; simp; omega
        · rw [List.filter_cons_of_neg (by simp [hb])]; simp
    · simp only [Function.comp_apply, if_neg h]
      rw [List.filter_cons_of_neg (by simp [h])]

theorem addCol_WF {tables : TableMap} (h : tables.WF) (r : ColumnRow) : (addCol tables r).WF := by
  unfold addCol
  split
  · exact h
  · exact GoMap.put_WF h _ _

theorem addCols_WF {tables : TableMap} (h : tables.WF) (rs : List ColumnRow) : (rs.foldl addCol tables).WF := by
  induction rs generalizing tables with
  | nil => exact h
  | cons r rs ih => exact ih (addCol_WF h r)

/-! ## Indexes -/

def addIdx (ff : FloatFmt) (b : TableMap × Option Bytes) (r : IndexRow) : TableMap × Option Bytes :=
  match b.1.get? r.tableId with
  | some t => (b.1.put r.tableId { t with indexes := t.indexes.put r.id (indexOf r) }, b.2)
  | none => (b.1, some (b! "Table ID have not found " ++ fmtV ff (.uint r.tableId)))

theorem addIndexRow_eq (ff : FloatFmt) (b : TableMap × Option Bytes) (row : List Column) (r : IndexRow) (h : IsIndexRow row r) :
    addIndexRow ff b.1 b.2 row = some (addIdx ff b r) := by
  obtain ⟨h0, h1, h4, h5, h6⟩ := h
  unfold addIndexRow addIdx
  rw [rowUint_of h0, rowUint_of h1, rowStr_of h4, rowUint_of h5, rowUint_of h6]
  simp only [Option.bind_eq_bind, Option.bind_some]
  cases b.1.get? r.tableId with
  | some t => rfl
  | none =>
    dsimp only
    unfold valueAt at h0
    rw [List.getElem?_map] at h0
    cases hr : row[0]? with
    | none => rw [hr] at h0; cases h0
    | some c =>
      rw [hr] at h0
      injection h0 with h0
      have h0 : c.value = _ := h0
      rw [Option.bind_some, h0]
      rfl

theorem addIdx_get (ff : FloatFmt) (b : TableMap × Option Bytes) (r : IndexRow) (id : Nat) :
    (addIdx ff b r).1.get? id = (b.1.get? id).map fun t =>
      if r.tableId = id then { t with indexes := t.indexes.put r.id (indexOf r) } else t := by
  unfold addIdx
  cases ht : b.1.get? r.tableId with
  | none =>
    by_cases h : r.tableId = id
    · subst h; dsimp only; rw [ht]; rfl
    · simp only [if_neg h]; cases b.1.get? id <;> rfl
  | some t =>
    dsimp only
    rw [GoMap.get?_put]
    by_cases h : r.tableId = id
    · subst h; rw [if_pos rfl, ht]; simp
    · rw [if_neg (fun e => h e.symm)]; simp only [if_neg h]; cases b.1.get? id <;> rfl

theorem addIdxs_get (ff : FloatFmt) (rs : List IndexRow) (b : TableMap × Option Bytes) (id : Nat) :
    (rs.foldl (addIdx ff) b).1.get? id = (b.1.get? id).map fun t =>
      { t with indexes := (rs.filter (·.tableId == id)).foldl (fun m r => m.put r.id (indexOf r)) t.indexes } := by
  induction rs generalizing b with
  | nil => simp
  | cons r rs ih =>
    rw [List.foldl_cons, ih, addIdx_get, Option.map_map]
    congr 1
    funext t
    by_cases h : r.tableId = id
    · simp only [Function.comp_apply, if_pos h]
      rw [List.filter_cons_of_pos (by simp [h])]; rfl
    · simp only [Function.comp_apply, if_neg h]
      rw [List.filter_cons_of_neg (by simp [h])]

theorem addIdx_WF (ff : FloatFmt) {b : TableMap × Option Bytes} (h : b.1.WF) (r : IndexRow) : (addIdx ff b r).1.WF := by
  unfold addIdx
  split
  · exact GoMap.put_WF h _ _
  · exact h

theorem addIdxs_WF (ff : FloatFmt) (rs : List IndexRow) {b : TableMap × Option Bytes} (h : b.1.WF) : (rs.foldl (addIdx ff) b).1.WF := by
  induction rs generalizing b with
  | nil => exact h
  | cons r rs ih => exact ih (addIdx_WF ff h r)

theorem addIdx_err (ff : FloatFmt) (b : TableMap × Option Bytes) (r : IndexRow) :
    (addIdx ff b r).2 = if (b.1.get? r.tableId).isSome then b.2 else
      some (b! "Table ID have not found " ++ dec r.tableId) := by
  unfold addIdx
  cases b.1.get? r.tableId <;> rfl

theorem addIdxs_err (ff : FloatFmt) (rs : List IndexRow) (b : TableMap × Option Bytes) :
    (rs.foldl (addIdx ff) b).2 = match lastWith (fun r => (b.1.get? r.tableId).isNone) rs with
      | some r => some (b! "Table ID have not found " ++ dec r.tableId)
      | none => b.2 := by
  induction rs using List.reverseRecOn with
  | nil => rfl
  | append_singleton rs r ih =>
    rw [List.foldl_append, List.foldl_cons, List.foldl_nil, addIdx_err, lastWith_append, addIdxs_get, ih]
    cases b.1.get? r.tableId <;> rfl

/-! ## Index fields -/

def addFld (m : GoMap (List IdxField)) (r : FieldRow) : GoMap (List IdxField) :=
  m.put r.indexId ((m.get? r.indexId).getD [] ++ [fieldOf r])

theorem addFieldRow_eq (m : GoMap (List IdxField)) (row : List Column) (r : FieldRow) (h : IsFieldRow row r) :
    addFieldRow m row = some (addFld m r) := by
  obtain ⟨h0, h1, h4⟩ := h
  unfold addFieldRow addFld
  rw [rowUint_of h0, rowUint_of h1, rowStr_of h4]
  simp only [Option.bind_eq_bind, Option.bind_some]
  cases m.get? r.indexId <;> rfl

theorem addFlds_get (rs : List FieldRow) (m : GoMap (List IdxField)) (k : Nat) :
    ((rs.foldl addFld m).get? k).getD [] = (m.get? k).getD [] ++ (rs.filter (·.indexId == k)).map fieldOf := by
  induction rs generalizing m with
  | nil => simp
  | cons r rs ih =>
    rw [List.foldl_cons, ih]
    unfold addFld
    rw [GoMap.get?_put]
    by_cases h : k = r.indexId
    · rw [if_pos h, List.filter_cons_of_pos (by simp [h]), h]; simp
    · rw [if_neg h, List.filter_cons_of_neg (by simpa using fun e => h e.symm)]

theorem attachFields_get (m : GoMap (List IdxField)) (tables : TableMap) (id : Nat) :
    (attachFields m tables).get? id = (tables.get? id).map fun t =>
      { t with indexes := t.indexes.map fun ix => (ix.1, { ix.2 with fields := (m.get? ix.1).getD ix.2.fields }) } := by
  unfold attachFields
  refine (GoMap.get?_map tables (fun _ t => ({ t with indexes := t.indexes.map fun ix =>
      (ix.1, match m.get? ix.1 with
        | some v => { ix.2 with fields := v }
        | none => ix.2) } : Table)) id).trans ?_
  congr 1
  funext t
  congr 2
  funext ix
  cases m.get? ix.1 <;> rfl

end Verif
