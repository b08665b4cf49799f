import Verif.Spec.Page
import Verif.Model.DataPage
import Verif.Proofs.Arith
import Verif.Proofs.GoM
/-! Lemmas about page headers and the reading of a file. -/

set_option linter.unusedSimpArgs false

namespace Verif
open Spec

theorem read_drop {w : Nat} (d : Bytes) (a pos : Nat) (h : a + pos + w ≤ d.length) :
    readW w (d.drop a) pos = some (numAt d (a + pos) w) := by
  unfold readW
  rw [if_pos (by rw [List.length_drop]; omega), List.drop_drop]
  rfl

theorem read_at {w : Nat} (d : Bytes) (pos : Nat) (h : pos + w ≤ d.length) : readW w d pos = some (numAt d pos w) := by
  unfold readW
  rw [if_pos h]
  rfl

/-- the file header as a table of fields -/
def filOf (d : Bytes) : FilHeader :=
  ⟨field d FIL_PAGE_SPACE_ID, field d FIL_PAGE_OFFSET, field d FIL_PAGE_PREV, field d FIL_PAGE_NEXT,
   field d FIL_PAGE_LSN, field d FIL_PAGE_TYPE, field d FIL_PAGE_FILE_FLUSH_LSN, field d FIL_PAGE_ARCH_LOG_NO⟩

/-- what `parseFilHeader` returns -/
def rawPage (d : Bytes) : Page :=
  { fh := filOf d, ph := { indexId := field d PAGE_INDEX_ID }, orig := d, data := d.drop 38 }

/-- what `parsePageHeader` makes of it -/
def fullPage (d : Bytes) : Page :=
  { fh := filOf d,
    ph := ⟨field d PAGE_N_DIR_SLOTS, field d PAGE_HEAP_TOP, field d PAGE_N_HEAP, field d PAGE_FREE, field d PAGE_GARBAGE,
      field d PAGE_LAST_INSERT, field d PAGE_DIRECTION, field d PAGE_N_DIRECTION, field d PAGE_N_RECS,
      field d PAGE_MAX_TRX_ID, field d PAGE_LEVEL, field d PAGE_INDEX_ID⟩,
    orig := d, data := d.drop 68 }

theorem parseFilHeader_eq (d : Bytes) :
    parseFilHeader d = if 74 ≤ d.length then some (rawPage d) else none := by
  unfold parseFilHeader
  simp only [read8_eq, read4_eq, read2_eq]
  by_cases h : 74 ≤ d.length
  · rw [if_pos h]
    simp only [read_at d _ (show 38 + 28 + 8 ≤ d.length by omega), read_at d _ (show 0 + 4 ≤ d.length by omega),
      read_at d _ (show 4 + 4 ≤ d.length by omega), read_at d _ (show 8 + 4 ≤ d.length by omega),
      read_at d _ (show 12 + 4 ≤ d.length by omega), read_at d _ (show 16 + 8 ≤ d.length by omega),
      read_at d _ (show 24 + 2 ≤ d.length by omega), read_at d _ (show 26 + 8 ≤ d.length by omega),
      read_at d _ (show 34 + 4 ≤ d.length by omega)]
    simp only [sliceFrom, if_pos (show 38 ≤ d.length by omega), Option.bind_eq_bind, Option.bind_some]
    rfl
  · rw [if_neg h]
    have : readW 8 d (38 + 28) = none := by unfold readW; rw [if_neg (by omega)]
    rw [this]; rfl

theorem parsePageHeader_eq (d : Bytes) (h : 74 ≤ d.length) : parsePageHeader (rawPage d) = some (fullPage d) := by
  unfold parsePageHeader rawPage
  simp only [read8_eq, read2_eq]
  simp only [read_drop d 38 0 (w := 2) (by omega), read_drop d 38 2 (w := 2) (by omega), read_drop d 38 4 (w := 2) (by omega),
    read_drop d 38 6 (w := 2) (by omega), read_drop d 38 8 (w := 2) (by omega), read_drop d 38 10 (w := 2) (by omega),
    read_drop d 38 12 (w := 2) (by omega), read_drop d 38 14 (w := 2) (by omega), read_drop d 38 16 (w := 2) (by omega),
    read_drop d 38 18 (w := 8) (by omega), read_drop d 38 26 (w := 2) (by omega), read_drop d 38 28 (w := 2) (by omega)]
  simp only [sliceFrom, List.length_drop, if_pos (show 30 ≤ d.length - 38 by omega), Option.bind_eq_bind, Option.bind_some,
    List.drop_drop]
  rfl

theorem parseSysPageHeader_eq (d : Bytes) (h : 90 ≤ d.length) :
    parseSysPageHeader (rawPage d) = some
      ⟨field d DICT_HDR_ROW_ID, field d DICT_HDR_TABLE_ID, field d DICT_HDR_INDEX_ID, field d DICT_HDR_MAX_SPACE_ID,
       field d DICT_HDR_MIX_ID_LOW, field d DICT_HDR_TABLES, field d DICT_HDR_TABLE_IDS, field d DICT_HDR_COLUMNS,
       field d DICT_HDR_INDEXES, field d DICT_HDR_FIELDS⟩ := by
  unfold parseSysPageHeader rawPage
  simp only [read8_eq, read4_eq]
  simp only [read_drop d 38 0 (w := 8) (by omega), read_drop d 38 8 (w := 8) (by omega), read_drop d 38 16 (w := 8) (by omega),
    read_drop d 38 24 (w := 4) (by omega), read_drop d 38 28 (w := 4) (by omega), read_drop d 38 32 (w := 4) (by omega),
    read_drop d 38 36 (w := 4) (by omega), read_drop d 38 40 (w := 4) (by omega), read_drop d 38 44 (w := 4) (by omega),
    read_drop d 38 48 (w := 4) (by omega), Option.bind_eq_bind, Option.bind_some]
  rfl

theorem rawPage_offset (d : Bytes) : (rawPage d).fh.offset = pageNumber d := rfl

theorem rawPage_orig (d : Bytes) : (rawPage d).orig = d := rfl

theorem pageImage_length (c : Bytes) (k : Nat) : (pageImage c k).length = pageSize := by simp [pageImage]

theorem getD_append_replicate (a : Bytes) (n j : Nat) : (a ++ List.replicate n (0 : UInt8)).getD j 0 = a.getD j 0 := by
  rw [List.getD_eq_getElem?_getD, List.getD_eq_getElem?_getD, List.getElem?_append]
  split
  · rfl
  · rename_i h
    rw [List.getElem?_eq_none (by omega : a.length ≤ j), List.getElem?_replicate]
    split <;> rfl

theorem eq_map_getD (l : Bytes) : l = (List.range l.length).map fun j => l.getD j 0 := by
  apply List.ext_getElem
  · simp
  · intro i h1 h2
    simp [List.getD_eq_getElem?_getD, h1]

theorem padded (P : Nat) (r : Bytes) :
    r.take P ++ List.replicate (P - r.length) (0 : UInt8) = (List.range P).map fun j => r.getD j 0 := by
  have hl : (r.take P ++ List.replicate (P - r.length) (0 : UInt8)).length = P := by
    simp; omega
  rw [eq_map_getD (r.take P ++ List.replicate (P - r.length) 0), hl]
  apply List.map_congr_left
  intro j hj
  have hj : j < P := List.mem_range.mp hj
  rw [getD_append_replicate, List.getD_eq_getElem?_getD, List.getD_eq_getElem?_getD, List.getElem?_take_of_lt hj]

theorem pageImage_74 (c : Bytes) (k : Nat) : 74 ≤ (pageImage c k).length := by
  rw [pageImage_length]; decide

theorem pageImage_90 (c : Bytes) (k : Nat) : 90 ≤ (pageImage c k).length := by
  rw [pageImage_length]; decide

/-- one read of a page -/
theorem readNext_eq (c : Bytes) (k : Nat) :
    readNextBytes (c.drop (pageSize * k)) DefaultPageSize =
      if pageSize * k < c.length then some (pageImage c k, c.drop (pageSize * (k + 1))) else none := by
  unfold readNextBytes
  have hps : DefaultPageSize = pageSize := rfl
  rw [hps]
  by_cases h : pageSize * k < c.length
  · have hne : c.drop (pageSize * k) ≠ [] := by
      intro he
      have := congrArg List.length he
      simp at this; omega
    rw [if_neg hne, if_pos h, List.drop_drop, padded, Nat.mul_add, Nat.mul_one]
    have : (List.range pageSize).map (fun j => (c.drop (pageSize * k)).getD j 0) = pageImage c k := by
      unfold pageImage
      apply List.map_congr_left
      intro j _
      rw [List.getD_eq_getElem?_getD, List.getD_eq_getElem?_getD, List.getElem?_drop]
    rw [this]
  · rw [if_neg h, if_pos (List.drop_eq_nil_of_le (by omega))]

/-- is `k` the first page with its number? -/
def isFirst (c : Bytes) (k : Nat) : Bool :=
  (List.range k).all fun i => pageNumber (pageImage c i) != pageNumber (pageImage c k)

theorem isFirst_eq (c : Bytes) (k : Nat) (seen : List Nat)
    (hs : ∀ x, x ∈ seen ↔ ∃ i < k, pageNumber (pageImage c i) = x) :
    isFirst c k = !(seen.contains (pageNumber (pageImage c k))) := by
  rw [Bool.eq_iff_iff]
  simp only [isFirst, List.all_eq_true, List.mem_range, bne_iff_ne, Bool.not_eq_true', List.contains_eq_mem,
    decide_eq_false_iff_not, hs, not_exists, not_and]

theorem parseFileLoop_eq (c : Bytes) (fuel k m : Nat) (seen : List Nat) (pages : List Page)
    (hm : k + m = pageCount c) (hf : m ≤ fuel)
    (hs : ∀ x, x ∈ seen ↔ ∃ i < k, pageNumber (pageImage c i) = x) :
    parseFileLoop fuel (c.drop (pageSize * k)) seen pages =
      some (pages ++ ((List.range' k m).filter (isFirst c)).map fun i => rawPage (pageImage c i)) := by
  have hps : pageSize = 16384 := rfl
  induction m generalizing fuel k seen pages with
  | zero =>
    have hk : ¬ pageSize * k < c.length := by
      unfold pageCount at hm; rw [hps] at hm ⊢; omega
    cases fuel with
    | zero => simp [parseFileLoop]
    | succ fuel =>
      rw [parseFileLoop, readNext_eq, if_neg hk]
      simp
  | succ m ih =>
    have hk : pageSize * k < c.length := by
      unfold pageCount at hm; rw [hps] at hm ⊢; omega
    cases fuel with
    | zero => omega
    | succ fuel =>
      rw [parseFileLoop, readNext_eq, if_pos hk]
      simp only
      rw [parseFilHeader_eq, if_pos (pageImage_74 c k)]
      simp only [Option.bind_eq_bind, Option.bind_some]
      have hpn : (rawPage (pageImage c k)).fh.offset = pageNumber (pageImage c k) := rawPage_offset _
      rw [hpn]
      have hfirst := isFirst_eq c k seen hs
      rw [List.range'_succ]
      cases hc : seen.contains (pageNumber (pageImage c k)) with
      | true =>
        rw [if_pos rfl, ih fuel (k + 1) seen pages (by omega) (by omega)]
        · rw [List.filter_cons_of_neg (by rw [hfirst, hc]; decide)]
        · intro x
          rw [hs]
          constructor
          · rintro ⟨i, hi, rfl⟩; exact ⟨i, by omega, rfl⟩
          · rintro ⟨i, hi, rfl⟩
            by_cases e : i = k
            · subst e
              rw [List.contains_eq_mem, decide_eq_true_eq, hs] at hc
              exact hc
            · exact ⟨i, by omega, rfl⟩
      | false =>
        rw [if_neg (by simp), ih fuel (k + 1) _ _ (by omega) (by omega)]
        · rw [List.filter_cons_of_pos (by rw [hfirst, hc]; decide)]
          simp
        · intro x
          rw [List.mem_cons, hs]
          constructor
          · rintro (hx | ⟨i, hi, hx⟩)
            · exact ⟨k, by omega, hx.symm⟩
            · exact ⟨i, by omega, hx⟩
          · rintro ⟨i, hi, rfl⟩
            by_cases e : i = k
            · subst e; exact Or.inl rfl
            · exact Or.inr ⟨i, by omega, rfl⟩

theorem parseFile_eq (c : Bytes) :
    parseFile c = some ((firstCopies c).map fun i => rawPage (pageImage c i)) := by
  have hps : pageSize = 16384 := rfl
  have := parseFileLoop_eq c c.length 0 (pageCount c) [] [] (by omega)
    (by unfold pageCount; rw [hps]; omega) (by simp)
  rw [Nat.mul_zero, List.drop_zero] at this
  rw [parseFile, this, List.nil_append, firstCopies, List.range_eq_range']
  rfl

theorem pageSelected_iff (r : Bool) (d : Bytes) : pageSelected r (fullPage d) = true ↔ Selected r d := by
  unfold pageSelected Selected fullPage filOf
  simp only [FIL_PAGE_INDEX, FilPageIndex]
  generalize field d PAGE_FREE = fr
  generalize field d PAGE_GARBAGE = g
  generalize field d FIL_PAGE_TYPE = ty
  generalize field d PAGE_LEVEL = lv
  generalize field d PAGE_MAX_TRX_ID = mt
  generalize field d PAGE_N_RECS = nr
  cases r
  · simp [and_assoc]
  · simp only [Bool.true_and, Bool.and_eq_true, beq_iff_eq, decide_eq_true_eq, forall_const, Bool.not_eq_true',
      beq_eq_false_iff_ne, ne_eq]
    by_cases c1 : nr = 0 ∧ fr = 0
    · rw [if_pos c1]; simp; omega
    rw [if_neg c1]
    by_cases c2 : fr > 0 ∧ g = 0
    · rw [if_pos c2]; simp; omega
    rw [if_neg c2]
    by_cases c3 : fr = 0 ∧ g = 0
    · rw [if_pos c3]; simp; omega
    rw [if_neg c3]
    by_cases c4 : fr > 16384
    · rw [if_pos c4]; simp; omega
    rw [if_neg c4]
    simp only [Bool.and_eq_true, beq_iff_eq, Bool.not_eq_true', beq_eq_false_iff_ne, ne_eq]
    omega

end Verif
