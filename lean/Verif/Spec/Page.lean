import Verif.Spec.Ints
/-!
# Specification: tablespace files and page headers

Written from the InnoDB documentation (fil0fil.h, page0page.h, dict0boot.h).
-/

namespace Verif.Spec

def pageSize : Nat := 16384

/-- Number of pages of a file; a trailing partial page counts. -/
def pageCount (content : Bytes) : Nat := (content.length + (pageSize - 1)) / pageSize

/-- The `k`-th page of a file; bytes beyond the end of the file are zero. -/
def pageImage (content : Bytes) (k : Nat) : Bytes :=
  (List.range pageSize).map fun j => content.getD (pageSize * k + j) 0

/-- The unsigned big-endian number of `w` bytes at an offset. -/
def numAt (page : Bytes) (off w : Nat) : Nat := beVal ((page.drop off).take w)

/-- FIL_PAGE_OFFSET: the page number -/
def pageNumber (page : Bytes) : Nat := numAt page 4 4

/-- The positions of the pages whose number does not occur earlier in the file, in file order. -/
def firstCopies (content : Bytes) : List Nat :=
  (List.range (pageCount content)).filter fun k =>
    (List.range k).all fun i => pageNumber (pageImage content i) != pageNumber (pageImage content k)

/-! ## Header fields: offset and width in the page -/

def FIL_PAGE_SPACE_ID : Nat × Nat := (0, 4)
def FIL_PAGE_OFFSET : Nat × Nat := (4, 4)
def FIL_PAGE_PREV : Nat × Nat := (8, 4)
def FIL_PAGE_NEXT : Nat × Nat := (12, 4)
def FIL_PAGE_LSN : Nat × Nat := (16, 8)
def FIL_PAGE_TYPE : Nat × Nat := (24, 2)
def FIL_PAGE_FILE_FLUSH_LSN : Nat × Nat := (26, 8)
def FIL_PAGE_ARCH_LOG_NO : Nat × Nat := (34, 4)

/-! The index page header begins at byte 38. -/
def PAGE_N_DIR_SLOTS : Nat × Nat := (38 + 0, 2)
def PAGE_HEAP_TOP : Nat × Nat := (38 + 2, 2)
def PAGE_N_HEAP : Nat × Nat := (38 + 4, 2)
def PAGE_FREE : Nat × Nat := (38 + 6, 2)
def PAGE_GARBAGE : Nat × Nat := (38 + 8, 2)
def PAGE_LAST_INSERT : Nat × Nat := (38 + 10, 2)
def PAGE_DIRECTION : Nat × Nat := (38 + 12, 2)
def PAGE_N_DIRECTION : Nat × Nat := (38 + 14, 2)
def PAGE_N_RECS : Nat × Nat := (38 + 16, 2)
def PAGE_MAX_TRX_ID : Nat × Nat := (38 + 18, 8)
def PAGE_LEVEL : Nat × Nat := (38 + 26, 2)
def PAGE_INDEX_ID : Nat × Nat := (38 + 28, 8)

/-! The dictionary header (page 7) begins at byte 38. -/
def DICT_HDR_ROW_ID : Nat × Nat := (38 + 0, 8)
def DICT_HDR_TABLE_ID : Nat × Nat := (38 + 8, 8)
def DICT_HDR_INDEX_ID : Nat × Nat := (38 + 16, 8)
def DICT_HDR_MAX_SPACE_ID : Nat × Nat := (38 + 24, 4)
def DICT_HDR_MIX_ID_LOW : Nat × Nat := (38 + 28, 4)
def DICT_HDR_TABLES : Nat × Nat := (38 + 32, 4)
def DICT_HDR_TABLE_IDS : Nat × Nat := (38 + 36, 4)
def DICT_HDR_COLUMNS : Nat × Nat := (38 + 40, 4)
def DICT_HDR_INDEXES : Nat × Nat := (38 + 44, 4)
def DICT_HDR_FIELDS : Nat × Nat := (38 + 48, 4)

def field (page : Bytes) (f : Nat × Nat) : Nat := numAt page f.1 f.2

def FIL_PAGE_INDEX : Nat := 17855

/-- Which pages are to be decoded: leaf pages of type INDEX with PAGE_MAX_TRX_ID zero; when recovering deleted rows, only
those with a free list and garbage bytes. -/
def Selected (recovery : Bool) (page : Bytes) : Prop :=
  field page FIL_PAGE_TYPE = FIL_PAGE_INDEX ∧ field page PAGE_LEVEL = 0 ∧ field page PAGE_MAX_TRX_ID = 0 ∧
  (recovery = true → 1 ≤ field page PAGE_FREE ∧ field page PAGE_FREE ≤ 16384 ∧ field page PAGE_GARBAGE ≠ 0)

instance (r : Bool) (p : Bytes) : Decidable (Selected r p) := inferInstanceAs (Decidable (_ ∧ _))

end Verif.Spec
