import Verif.Model.DataPage
/-!
# Model of the dictionary loader (`ParseDictPage`, recovery/ibdata/parse.go)
-/

namespace Verif

/-- structure.go:59-64 `DataDict`.  `pos` is only used as the unused parameter of `parsePage` and is omitted. -/
structure DataDict where
  indexId : Nat
  pageOffset : Nat
  data : Bytes
deriving Repr, DecidableEq

/-- const.go:29-35 -/
def SysTablesIdx : Nat := 1
def SysColumnsIdx : Nat := 2
def SysIndexesIdx : Nat := 3
def SysFieldsIdx : Nat := 4
def SystemPageIdx : Nat := 7

/-- State of `ibdata.Parse` (`TableMap`, `D`) and standard output. -/
structure DState where
  tables : TableMap := []
  dict : GoMap (List DataDict) := []
  out : Out := []
deriving Repr, DecidableEq

def DState.setTables (s : DState) (t : TableMap) : DState := { s with tables := t }

/-! ## Column lists of the SYS tables -/

/-- parse.go:962-977 `makeSysTablesColumns` -/
def makeSysTablesColumns : List Column := [
  { name := b! "NAME", ftype := 4, pos := 0, len := 0 },
  { name := b! "DB_TRX_ID", ftype := 1, pos := 1, len := 6 },
  { name := b! "DB_ROLL_PTR", ftype := 1, pos := 2, len := 7 },
  { name := b! "ID", ftype := 4, pos := 3, len := 8 },
  { name := b! "N_COLS", ftype := 6, pos := 4, len := 4 },
  { name := b! "TYPE", ftype := 6, pos := 5, len := 4, isUnsigned := true },
  { name := b! "MIX_ID", ftype := 4, pos := 6, len := 0 },
  { name := b! "MIX_LEN", ftype := 6, pos := 7, len := 4, isUnsigned := true },
  { name := b! "CLUSTER_NAME", ftype := 4, pos := 8, len := 0 },
  { name := b! "SPACE", ftype := 6, pos := 9, len := 4, isUnsigned := true }]

/-- parse.go:981-995 `makeSysColumnsColumns` -/
def makeSysColumnsColumns : List Column := [
  { name := b! "TABLE_ID", ftype := 4, pos := 0, len := 8 },
  { name := b! "POS", ftype := 6, pos := 1, len := 4, isUnsigned := true },
  { name := b! "DB_TRX_ID", ftype := 1, pos := 2, len := 6 },
  { name := b! "DB_ROLL_PTR", ftype := 1, pos := 3, len := 7 },
  { name := b! "NAME", ftype := 4, pos := 4, len := 0 },
  { name := b! "MTYPE", ftype := 6, pos := 5, len := 4, isUnsigned := true },
  { name := b! "PRTYPE", ftype := 6, pos := 6, len := 4, isUnsigned := true },
  { name := b! "LEN", ftype := 6, pos := 7, len := 4, isUnsigned := true },
  { name := b! "PREC", ftype := 6, pos := 8, len := 4, isUnsigned := true }]

/-- parse.go:999-1013 `makeSysIndexesColumns` -/
def makeSysIndexesColumns : List Column := [
  { name := b! "TABLE_ID", ftype := 4, pos := 0, len := 8 },
  { name := b! "ID", ftype := 4, pos := 1, len := 8 },
  { name := b! "DB_TRX_ID", ftype := 1, pos := 2, len := 6 },
  { name := b! "DB_ROLL_PTR", ftype := 1, pos := 3, len := 7 },
  { name := b! "NAME", ftype := 4, pos := 4, len := 0 },
  { name := b! "N_FIELDS", ftype := 6, pos := 5, len := 4, isUnsigned := true },
  { name := b! "TYPE", ftype := 6, pos := 6, len := 4, isUnsigned := true },
  { name := b! "SPACE", ftype := 6, pos := 7, len := 4, isUnsigned := true },
  { name := b! "PAGE_NO", ftype := 6, pos := 8, len := 4, isUnsigned := true }]

/-- parse.go:1017-1027 `makeSysFieldsColumns` -/
def makeSysFieldsColumns : List Column := [
  { name := b! "INDEX_ID", ftype := 4, pos := 0, len := 8 },
  { name := b! "POS", ftype := 6, pos := 1, len := 4, isUnsigned := true },
  { name := b! "DB_TRX_ID", ftype := 1, pos := 2, len := 6 },
  { name := b! "DB_ROLL_PTR", ftype := 1, pos := 3, len := 7 },
  { name := b! "COL_NAME", ftype := 4, pos := 4, len := 0 }]

/-! ## Rows to dictionary entries -/

/-- `row[i].FieldValue.(uint64)` -/
def rowUint (row : List Column) (i : Nat) : Option Nat := do (← row[i]?).value.asUint
/-- `row[i].FieldValue.(string)` -/
def rowStr (row : List Column) (i : Nat) : Option Bytes := do (← row[i]?).value.asStr

/-- `strings.Split(s, "/")` -/
def splitSlash (s : Bytes) : List Bytes :=
  match s with
  | [] => [[]]
  | c :: cs =>
    if c = 47 then [] :: splitSlash cs
    else match splitSlash cs with
      | h :: t => (c :: h) :: t
      | [] => [[c]]

/-- parse.go:603-620: one SYS_TABLES row -/
def addTableRow (tables : TableMap) (row : List Column) : Option TableMap := do
  let full ← rowStr row 0
  let (db, name) ←
    if full.contains 47 then do
      let n := splitSlash full
      pure (← n[0]?, ← n[1]?)
    else pure ([], full)
  let id ← rowUint row 3
  let space ← rowUint row 9
  return tables.put id { db := db, name := name, nullCount := 0, spaceId := space }

/-- parse.go:415-469: one SYS_COLUMNS row -/
def addColumnRow (tables : TableMap) (c : List Column) : Option TableMap := do
  let id ← rowUint c 0
  match tables.get? id with
  | none => return tables
  | some t =>
    let prtype ← rowUint c 6
    let isNull := prtype &&& 256 == 0
    let nullCount := if isNull then t.nullCount + 1 else t.nullCount
    let isUnsigned := prtype &&& 512 != 0
    let mtype := prtype &&& 0xFF
    let dtype ← rowUint c 5
    let isBinary := dtype == DATA_BLOB && prtype &&& 1024 != 0
    let len ← if dtype ≠ DATA_BINARY then rowUint c 7 else some 0
    let name ← rowStr c 4
    let pos ← rowUint c 1
    let col : Column := { name := name, ftype := dtype, mtype := mtype, pos := pos, len := len, isNull := isNull,
                          isUnsigned := isUnsigned, tableId := id, isBinary := isBinary }
    return tables.put id { t with nullCount := nullCount, columns := t.columns ++ [col] }

/-- parse.go:496-522: one SYS_INDEXES row; `err` is the error variable of `getAllIndexes`. -/
def addIndexRow (ff : FloatFmt) (tables : TableMap) (err : Option Bytes) (row : List Column) :
    Option (TableMap × Option Bytes) := do
  let tid ← rowUint row 0
  match tables.get? tid with
  | some t =>
    let id ← rowUint row 1
    let name ← rowStr row 4
    let itype ← rowUint row 6
    let fieldNum ← rowUint row 5
    let idx : Index := { id := id, name := name, indexType := itype, fieldNum := fieldNum }
    return (tables.put tid { t with indexes := t.indexes.put id idx }, err)
  | none =>
    let v := (← row[0]?).value
    return (tables, some (b! "Table ID have not found " ++ fmtV ff v))

/-- parse.go:548-566: one SYS_FIELDS row into `indexFieldsMap` -/
def addFieldRow (m : GoMap (List IdxField)) (row : List Column) : Option (GoMap (List IdxField)) := do
  let id ← rowUint row 0
  let pos ← rowUint row 1
  let name ← rowStr row 4
  match m.get? id with
  | some v => return m.put id (v ++ [⟨pos, name⟩])
  | none => return m.put id [⟨pos, name⟩]

/-- parse.go:569-580: attach the fields to the indexes of all tables -/
def attachFields (m : GoMap (List IdxField)) (tables : TableMap) : TableMap :=
  tables.map fun e =>
    (e.1, { e.2 with indexes := e.2.indexes.map fun ix =>
      (ix.1, match m.get? ix.1 with
        | some v => { ix.2 with fields := v }
        | none => ix.2) })

/-! ## Reading the SYS tables -/

/-- The loops parse.go:408-413, 489-494, 540-544: decode the pages of one SYS table; the slice `columns` is shared
by all pages. -/
def parseDictPages (env : Env) (tables : TableMap) : List DataDict → GoM PState (List (List Column))
  | [] => pure []
  | dt :: dts => do
    let rows ← parsePage env tables dt.data false 0
    let rest ← parseDictPages env tables dts
    return rows ++ rest

/-- Run page decoding inside the dictionary state with a fresh slice of columns. -/
def withCols {α} (cols : List Column) (m : GoM PState α) : GoM DState α :=
  GoM.zoom (fun s => (⟨cols, s.out⟩ : PState)) (fun t s => { s with out := t.out }) m

/-- fold a row handler over rows -/
def foldRows {β} (f : β → List Column → Option β) : β → List (List Column) → Option β
  | b, [] => some b
  | b, r :: rs => do foldRows f (← f b r) rs

/-- parse.go:598-621: the loop of `getAllTables`; rows are added page by page.  The slice `columns` is shared. -/
def allTablesLoop (env : Env) : List DataDict → List Column → GoM DState Unit
  | [], _ => pure ()
  | dt :: dts, cols => fun s =>
    match parsePage env s.tables dt.data false 0 ⟨cols, s.out⟩ with
    | .ok rows p =>
      match foldRows addTableRow s.tables rows with
      | some t => allTablesLoop env dts p.cols { s with tables := t, out := p.out }
      | none => .panic { s with out := p.out }
    | .panic p => .panic { s with out := p.out }
    | .hang p => .hang { s with out := p.out }

/-- parse.go:586-623 `getAllTables` -/
def getAllTables (env : Env) : GoM DState (Option Bytes) := do
  let s ← GoM.get
  match s.dict.get? SysTablesIdx with
  | none => return some (b! "sys table's page have not found")
  | some dts => do
    allTablesLoop env dts makeSysTablesColumns
    return none

/-- parse.go:394-471 `getAllColumns` -/
def getAllColumns (env : Env) : GoM DState (Option Bytes) := do
  let s ← GoM.get
  match s.dict.get? SysColumnsIdx with
  | none => return some (b! "sys column's page have not found")
  | some dts => do
    let rows ← withCols makeSysColumnsColumns (parseDictPages env s.tables dts)
    let t ← GoM.lift (foldRows addColumnRow s.tables rows)
    GoM.modify (·.setTables t)
    return none

/-- parse.go:474-524 `getAllIndexes` -/
def getAllIndexes (env : Env) : GoM DState (Option Bytes) := do
  let s ← GoM.get
  match s.dict.get? SysIndexesIdx with
  | none => return some (b! "sys indexes' page have not found")
  | some dts => do
    let rows ← withCols makeSysIndexesColumns (parseDictPages env s.tables dts)
    let t ← GoM.lift (foldRows (fun b r => addIndexRow env.ff b.1 b.2 r) (s.tables, none) rows)
    GoM.modify (·.setTables t.1)
    return t.2

/-- parse.go:527-583 `getAllFields` -/
def getAllFields (env : Env) : GoM DState (Option Bytes) := do
  let s ← GoM.get
  match s.dict.get? SysFieldsIdx with
  | none => return some (b! "sys field's page have not found")
  | some dts => do
    let rows ← withCols makeSysFieldsColumns (parseDictPages env s.tables dts)
    let m ← GoM.lift (foldRows addFieldRow [] rows)
    GoM.modify (fun s => s.setTables (attachFields m s.tables))
    return none

/-! ## Rearranging the columns -/

/-- parse.go:301-311 `sortColumns`: assigns to a copy of the map element only, so it changes nothing. -/
def sortColumns (tables : TableMap) : TableMap := tables

/-- parse.go:332-333: `columns = append(columns[:j], columns[j+1:]...)`, then prepend `temp`.  The in-place shift of
the old backing array is not observable because the result is a fresh slice that replaces the old one. -/
def moveOne (columns : List Column) (j : Nat) (temp : Column) : Option (List Column) :=
  if j + 1 ≤ columns.length then some (temp :: (columns.take j ++ columns.drop (j + 1))) else none

/-- parse.go:329-335: the inner loop over the fields, from index `j` on -/
def moveInner (i : Nat) : List IdxField → Nat → List Column → Option (List Column)
  | [], _, columns => some columns
  | f :: fs, j, columns => do
    let c ← columns[i]?
    let columns ← if f.name = c.name then moveOne columns j c else some columns
    moveInner i fs (j + 1) columns

/-- parse.go:328-336: the outer loop; `k` iterations remain, the next index is `i` -/
def moveOuter (fields : List IdxField) : Nat → Nat → List Column → Option (List Column)
  | 0, _, columns => some columns
  | k + 1, i, columns => do
    let columns ← moveInner i fields 0 columns
    moveOuter fields k (i + 1) columns

/-- parse.go:327-338 `moveColumns2First`.  The length never changes, so the loop runs `len(columns)` times. -/
def moveColumns2First (fields : List IdxField) (columns : List Column) : Option (List Column) :=
  moveOuter fields columns.length 0 columns

/-- parse.go:317-321: the indexes of one table -/
def movePrimaryTable : List (Nat × Index) → List Column → Option (List Column)
  | [], columns => some columns
  | ix :: ixs, columns => do
    let columns ← if ix.2.name = b! "PRIMARY" then moveColumns2First ix.2.fields columns else some columns
    movePrimaryTable ixs columns

/-- `for k, v := range m { ...; m[k] = f(v) }` where `f` may panic -/
def mapTables (f : Nat → Table → Option Table) : TableMap → Option TableMap
  | [] => some []
  | e :: es => do
    let t ← f e.1 e.2
    let rest ← mapTables f es
    return (e.1, t) :: rest

/-- parse.go:314-324 `movePrimaryKeyFirst` -/
def movePrimaryKeyFirst (tables : TableMap) : Option TableMap :=
  mapTables (fun _ t => do return { t with columns := ← movePrimaryTable t.indexes t.columns }) tables

/-- parse.go:372-375 `addColumns` -/
def addColumns (columns : List Column) (index : Nat) (column : Column) : Option (List Column) :=
  if index ≤ columns.length then some (columns.take index ++ [column] ++ columns.drop index) else none

/-- parse.go:377-391 `addInternalColumn` -/
def addInternalColumn (fieldName : Bytes) (tableID fieldPos : Nat) : Column :=
  if fieldName = b! "DB_ROW_ID" then
    { name := b! "DB_ROW_ID", ftype := DATA_MISSING, pos := 0, len := 6, isNull := false, tableId := tableID }
  else if fieldName = b! "DB_TRX_ID" then
    { name := b! "DB_TRX_ID", ftype := DATA_MISSING, pos := fieldPos, len := 6, isNull := false, tableId := tableID }
  else if fieldName = b! "DB_ROLL_PTR" then
    { name := b! "DB_ROLL_PTR", ftype := DATA_MISSING, pos := fieldPos, len := 7, isNull := false, tableId := tableID }
  else {}

/-- parse.go:346-367: the indexes of one table -/
def addInternalTable (tableID : Nat) : List (Nat × Index) → List Column → Option (List Column)
  | [], columns => some columns
  | ix :: ixs, columns => do
    let columns ←
      if ix.2.name = b! "PRIMARY" then do
        let trx := addInternalColumn (b! "DB_TRX_ID") tableID ix.2.fieldNum
        let roll := addInternalColumn (b! "DB_ROLL_PTR") tableID (ix.2.fieldNum + 1)
        let columns ← addColumns columns ix.2.fieldNum trx
        addColumns columns (ix.2.fieldNum + 1) roll
      else if ix.2.name = b! "GEN_CLUST_INDEX" then do
        let row := addInternalColumn (b! "DB_ROW_ID") tableID 0
        let trx := addInternalColumn (b! "DB_TRX_ID") tableID 1
        let roll := addInternalColumn (b! "DB_ROLL_PTR") tableID 2
        let columns ← addColumns columns 0 row
        let columns ← addColumns columns 1 trx
        addColumns columns 2 roll
      else some columns
    addInternalTable tableID ixs columns

/-- parse.go:344-369 `addInternalColumns` -/
def addInternalColumns (tables : TableMap) : Option TableMap :=
  mapTables (fun id t => do return { t with columns := ← addInternalTable id t.indexes t.columns }) tables

/-! ## ParseDictPage -/

/-- parse.go:53-62: the dictionary header of the first page numbered 7, or all zeros -/
def findSysHeader : List Page → Option SysHeader
  | [] => some {}
  | p :: ps => if p.fh.offset = SystemPageIdx then parseSysPageHeader p else findSysHeader ps

/-- parse.go:65-110: store the pages of the SYS tables in `D`.  Pages numbered as one of the four roots start a new
list under their index id, other pages are appended to the list of their index id if there is one. -/
def collectPages (sp : SysHeader) : List Page → GoMap (List DataDict) → Option (GoMap (List DataDict))
  | [], d => some d
  | p :: ps, d => do
    let entry : DataDict := ⟨p.ph.indexId, p.fh.offset, p.orig⟩
    if p.fh.offset = sp.tables ∨ p.fh.offset = sp.columns ∨ p.fh.offset = sp.indexes ∨ p.fh.offset = sp.fields then
      let _ ← parsePageHeader p
      collectPages sp ps (d.put p.ph.indexId [entry])
    else
      match d.get? p.ph.indexId with
      | some ds =>
        let _ ← parsePageHeader p
        collectPages sp ps (d.put p.ph.indexId (ds ++ [entry]))
      | none => collectPages sp ps d

/-- sequencing of functions that return an error: continue only on `nil` -/
def andThen {σ} (m : GoM σ (Option Bytes)) (k : GoM σ (Option Bytes)) : GoM σ (Option Bytes) := do
  match ← m with
  | some e => return some e
  | none => k

/-- parse.go:45-138 `ParseDictPage`; the result is the error -/
def parseDictPage (env : Env) (file : File) : GoM DState (Option Bytes) :=
  match file with
  | .error e => pure (some e)
  | .ok content => do
    let pages ← GoM.lift (parseFile content)
    let sp ← GoM.lift (findSysHeader pages)
    let s ← GoM.get
    let d ← GoM.lift (collectPages sp pages s.dict)
    GoM.modify (fun s => { s with dict := d })
    andThen (getAllTables env) <| andThen (getAllColumns env) <| andThen (getAllIndexes env) <|
      andThen (getAllFields env) do
        let s ← GoM.get
        let t ← GoM.lift (movePrimaryKeyFirst (sortColumns s.tables))
        let t ← GoM.lift (addInternalColumns t)
        GoM.modify (·.setTables t)
        return none

end Verif
