import Verif.Spec.Page
/-!
# Specification: undo log pages

From trx0undo.h: the page header begins at byte 38, the segment header (on the first page of a segment) follows it, and the
first undo log header follows the segment header.
-/

namespace Verif.Spec

def TRX_UNDO_PAGE_HDR : Nat := 38
/-- the page header: type, start, free (2 bytes each) and a list node of 12 bytes -/
def TRX_UNDO_PAGE_TYPE : Nat × Nat := (TRX_UNDO_PAGE_HDR + 0, 2)
def TRX_UNDO_PAGE_START : Nat × Nat := (TRX_UNDO_PAGE_HDR + 2, 2)
def TRX_UNDO_PAGE_FREE : Nat × Nat := (TRX_UNDO_PAGE_HDR + 4, 2)
def TRX_UNDO_PAGE_HDR_SIZE : Nat := 6 + 12

def TRX_UNDO_SEG_HDR : Nat := TRX_UNDO_PAGE_HDR + TRX_UNDO_PAGE_HDR_SIZE
/-- the segment header: state, last log (2 bytes each), a segment address of 10 bytes and a list base node of 16 bytes -/
def TRX_UNDO_STATE : Nat × Nat := (TRX_UNDO_SEG_HDR + 0, 2)
def TRX_UNDO_LAST_LOG : Nat × Nat := (TRX_UNDO_SEG_HDR + 2, 2)
def TRX_UNDO_SEG_HDR_SIZE : Nat := 4 + 10 + 16

def TRX_UNDO_LOG_HDR : Nat := TRX_UNDO_SEG_HDR + TRX_UNDO_SEG_HDR_SIZE
def TRX_UNDO_TRX_ID : Nat × Nat := (TRX_UNDO_LOG_HDR + 0, 8)
def TRX_UNDO_TRX_NO : Nat × Nat := (TRX_UNDO_LOG_HDR + 8, 8)
def TRX_UNDO_DEL_MARKS : Nat × Nat := (TRX_UNDO_LOG_HDR + 16, 2)
def TRX_UNDO_LOG_START : Nat × Nat := (TRX_UNDO_LOG_HDR + 18, 2)
def TRX_UNDO_XID_EXISTS : Nat × Nat := (TRX_UNDO_LOG_HDR + 20, 1)
def TRX_UNDO_DICT_TRANS : Nat × Nat := (TRX_UNDO_LOG_HDR + 21, 1)
def TRX_UNDO_TABLE_ID : Nat × Nat := (TRX_UNDO_LOG_HDR + 22, 8)
def TRX_UNDO_NEXT_LOG : Nat × Nat := (TRX_UNDO_LOG_HDR + 30, 2)
def TRX_UNDO_PREV_LOG : Nat × Nat := (TRX_UNDO_LOG_HDR + 32, 2)

/-- An undo record at `o` begins with the position of the next record, a byte with its type, its number and the id of its table. -/
def UndoRecordAt (page : Bytes) (o next : Nat) (type : UInt8) (undoNo tableId : Nat) : Prop :=
  ∃ pre post, page = pre ++ (beEnc 2 next ++ (type :: (ullMuchEnc undoNo ++ (ullMuchEnc tableId ++ post)))) ∧ pre.length = o

end Verif.Spec
