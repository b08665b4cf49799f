import Verif.Model.Ibdata
/-!
# Specification: the rows of the InnoDB dictionary tables and the table definitions they stand for

Column order of the clustered indexes of SYS_TABLES, SYS_COLUMNS, SYS_INDEXES and SYS_FIELDS: dict0boot.cc
(`dict_boot`).  Flags of PRTYPE: data0type.h.
-/

namespace Verif.Spec

/-- a row of SYS_TABLES -/
structure TableRow where
  name : Bytes
  id : Nat
  space : Nat
deriving Repr, DecidableEq

/-- a row of SYS_COLUMNS -/
structure ColumnRow where
  tableId : Nat
  pos : Nat
  name : Bytes
  mtype : Nat
  prtype : Nat
  len : Nat
deriving Repr, DecidableEq

/-- a row of SYS_INDEXES -/
structure IndexRow where
  tableId : Nat
  id : Nat
  name : Bytes
  nFields : Nat
  itype : Nat
deriving Repr, DecidableEq

/-- a row of SYS_FIELDS -/
structure FieldRow where
  indexId : Nat
  pos : Nat
  name : Bytes
deriving Repr, DecidableEq

/-- the value of a column of a decoded row -/
def valueAt (row : List Column) (i : Nat) : Option Val := (row.map (·.value))[i]?

/-- NAME, DB_TRX_ID, DB_ROLL_PTR, ID, N_COLS, TYPE, MIX_ID, MIX_LEN, CLUSTER_NAME, SPACE -/
def IsTableRow (row : List Column) (r : TableRow) : Prop :=
  valueAt row 0 = some (.str r.name) ∧ valueAt row 3 = some (.uint r.id) ∧ valueAt row 9 = some (.uint r.space)

/-- TABLE_ID, POS, DB_TRX_ID, DB_ROLL_PTR, NAME, MTYPE, PRTYPE, LEN, PREC -/
def IsColumnRow (row : List Column) (r : ColumnRow) : Prop :=
  valueAt row 0 = some (.uint r.tableId) ∧ valueAt row 1 = some (.uint r.pos) ∧ valueAt row 4 = some (.str r.name) ∧
  valueAt row 5 = some (.uint r.mtype) ∧ valueAt row 6 = some (.uint r.prtype) ∧ valueAt row 7 = some (.uint r.len)

/-- TABLE_ID, ID, DB_TRX_ID, DB_ROLL_PTR, NAME, N_FIELDS, TYPE, SPACE, PAGE_NO -/
def IsIndexRow (row : List Column) (r : IndexRow) : Prop :=
  valueAt row 0 = some (.uint r.tableId) ∧ valueAt row 1 = some (.uint r.id) ∧ valueAt row 4 = some (.str r.name) ∧
  valueAt row 5 = some (.uint r.nFields) ∧ valueAt row 6 = some (.uint r.itype)

/-- INDEX_ID, POS, DB_TRX_ID, DB_ROLL_PTR, COL_NAME -/
def IsFieldRow (row : List Column) (r : FieldRow) : Prop :=
  valueAt row 0 = some (.uint r.indexId) ∧ valueAt row 1 = some (.uint r.pos) ∧ valueAt row 4 = some (.str r.name)

/-! ## What the rows stand for -/

/-- the part of a name before the first `/`, and the part after it up to the next one; a name without `/` has no database -/
def splitName (full : Bytes) : Bytes × Bytes :=
  if 47 ∈ full then (full.takeWhile (· ≠ 47), ((full.dropWhile (· ≠ 47)).drop 1).takeWhile (· ≠ 47)) else ([], full)

def tableOf (r : TableRow) : Table := { db := (splitName r.name).1, name := (splitName r.name).2, spaceId := r.space }

/-- bit `k` of a number -/
def bit (n k : Nat) : Bool := n / 2 ^ k % 2 == 1

def DATA_NOT_NULL : Nat := 8
def DATA_UNSIGNED : Nat := 9
def DATA_BINARY_TYPE : Nat := 10

/-- The definition of the column: the MySQL type is the low byte of PRTYPE, the flags are bits 8 to 10.  The tool does not
need the length of DATA_BINARY columns and uses 0. -/
def columnOf (r : ColumnRow) : Column :=
  { name := r.name, ftype := r.mtype, mtype := r.prtype % 256, pos := r.pos, len := if r.mtype = 4 then 0 else r.len,
    isNull := !bit r.prtype DATA_NOT_NULL, isUnsigned := bit r.prtype DATA_UNSIGNED, isBinary := bit r.prtype DATA_BINARY_TYPE,
    tableId := r.tableId }

def indexOf (r : IndexRow) : Index := { id := r.id, name := r.name, fieldNum := r.nFields, indexType := r.itype }

def fieldOf (r : FieldRow) : IdxField := ⟨r.pos, r.name⟩

/-- the last element with a property -/
def lastWith {α : Type} (p : α → Bool) (l : List α) : Option α := l.reverse.find? p

example : splitName (b! "shop/orders") = (b! "shop", b! "orders") := by decide
example : splitName (b! "SYS_FOREIGN") = (b! "", b! "SYS_FOREIGN") := by decide
/-- `INT NOT NULL` -/
example : (columnOf ⟨13, 0, b! "id", 6, 1283, 4⟩).isNull = false ∧ (columnOf ⟨13, 0, b! "id", 6, 1283, 4⟩).mtype = 3 := by decide

end Verif.Spec
