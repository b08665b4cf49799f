import Verif.Model.DataPage
/-!
# Model of `recovery/ibdata/todo.go` (functions that no command calls yet)
-/

namespace Verif

/-- todo.go:11-18 `getColumnType` -/
def getColumnType (name : Bytes) : List Column → Nat
  | [] => 0
  | c :: cs => if c.name = name then c.ftype else getColumnType name cs

/-- todo.go:46-48 `MakeCreateTableSql` -/
def makeCreateTableSql (_ : Table) : Bytes := []

/-- todo.go:27-43 `RecoveryTableStruct`: text and error.  `getTableFromDict` never returns an error. -/
def recoveryTableStruct (tables : TableMap) (file : File) (db name : Bytes) : Option (Bytes × Option Bytes) :=
  match file with
  | .error e => some ([], some e)
  | .ok content => do
    let _ ← parseFile content
    return (makeCreateTableSql (getTableFromDict tables db name), none)

/-- `fmt.Println("the NAME is ", n)`: operands are separated by a further blank -/
def printField (name : Bytes) (v : Option Nat) : GoM Out Nat := do
  let n ← GoM.lift v
  println (b! "the " ++ name ++ b! " is  " ++ dec n)
  return n

/-- todo.go:51-193 `ParseUndoPageHeader`.  The type of the record is only logged. -/
def parseUndoPageHeader (page : Page) : GoM Out Page := do
  let d := page.data
  let _ ← printField (b! "TRX_UNDO_PAGE_TYPE") (read2 d 0)
  let _ ← printField (b! "TRX_UNDO_PAGE_START") (read2 d 2)
  let _ ← printField (b! "TRX_UNDO_PAGE_FREE") (read2 d 4)
  let _ ← printField (b! "TRX_UNDO_STATE") (read2 d 18)
  let _ ← printField (b! "TRX_UNDO_LAST_LOG") (read2 d 20)
  let _ ← printField (b! "TRX_UNDO_TRX_ID") (read8 d 48)
  let _ ← printField (b! "TRX_UNDO_TRX_NO") (read8 d 56)
  let _ ← printField (b! "TRX_UNDO_DEL_MARKS") (read2 d 64)
  let start ← printField (b! "TRX_UNDO_LOG_START") (read2 d 66)
  let _ ← printField (b! "TRX_UNDO_XID_EXISTS") (read1 d 68)
  let _ ← printField (b! "TRX_UNDO_DICT_TRANS") (read1 d 69)
  let _ ← printField (b! "TRX_UNDO_TABLE_ID") (read8 d 70)
  let _ ← printField (b! "TRX_UNDO_NEXT_LOG") (read2 d 78)
  let _ ← printField (b! "TRX_UNDO_PREV_LOG") (read2 d 80)
  let pos := sub64 start 38
  let len ← GoM.lift (read2 d pos)
  println (dec len ++ b! " " ++ dec (pos + 2))
  let _ ← GoM.lift (read1 d (pos + 2))
  let undoNo ← GoM.lift ((sliceFrom d (pos + 3)).bind matchUllReadMuchCompressed)
  let tableId ← GoM.lift ((sliceFrom d (pos + 3 + machUllGetMuchCompressedSize undoNo.1)).bind matchUllReadMuchCompressed)
  println (b! "table id is  " ++ dec tableId.1)
  return page

end Verif
