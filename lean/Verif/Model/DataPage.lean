import Verif.Model.Ibdata
/-!
# Model of `recovery/ibdata/format.go` and of `ParseDataPage` (`recovery/ibdata/parse.go`)
-/

namespace Verif

/-- format.go:24-26: the columns that are not printed -/
def isInternal (name : Bytes) : Bool :=
  name == b! "DB_ROW_ID" || name == b! "DB_TRX_ID" || name == b! "DB_ROLL_PTR"

/-- format.go:36-56: the text of one value -/
def valueText (ff : FloatFmt) (c : Column) : Bytes :=
  (if c.mtype = MYSQL_TYPE_BIT then b! "b" else []) ++
  (if c.isBinary then b! "unhex(" else []) ++
  (if c.value ≠ .nil ∧ c.value ≠ .str (b! "NULL") then
    b! "'" ++ escapeValue (fmtV ff c.value) ++ b! "'"
   else b! "NULL") ++
  (if c.isBinary then b! ")" else [])

/-- format.go:21-57: the loop over the columns; `firstCol` is the flag of the code -/
def valuesText (ff : FloatFmt) : Bool → List Column → Bytes
  | _, [] => []
  | firstCol, c :: cs =>
    if isInternal c.name then valuesText ff firstCol cs
    else (if firstCol then [] else b! ",") ++ valueText ff c ++ valuesText ff false cs

/-- format.go:18-60: one statement -/
def replaceStmt (ff : FloatFmt) (db table : Bytes) (columns : List Column) : Bytes :=
  b! "replace into `" ++ db ++ b! "`.`" ++ table ++ b! "` values (" ++ valuesText ff true columns ++ b! ");"

/-- format.go:12-68 `makeReplaceIntoStatement`: one line per row -/
def makeReplaceIntoStatement (ff : FloatFmt) (rows : List (List Column)) (table db : Bytes) : GoM Out Unit :=
  GoM.modify (· ++ rows.map (replaceStmt ff db table))

/-- The last element of the map (in iteration order) with the given names, with its key.  parse.go:1047-1065 keep
overwriting the result, so the last match wins. -/
def lookupTable (tables : TableMap) (db name : Bytes) : Option (Nat × Table) :=
  (tables.filter fun e => e.2.db == db && e.2.name == name).getLast?

/-- parse.go:1047-1055 `getTableColumnsFromDict` (the error is always `nil`) -/
def getTableColumnsFromDict (tables : TableMap) (db name : Bytes) : List Column :=
  match lookupTable tables db name with
  | some e => e.2.columns
  | none => []

/-- parse.go:1057-1065 `getTableFromDict` (the error is always `nil`) -/
def getTableFromDict (tables : TableMap) (db name : Bytes) : Table :=
  match lookupTable tables db name with
  | some e => e.2
  | none => {}

/-- parse.go:163-185: is this page decoded? -/
def pageSelected (isRecovery : Bool) (p : Page) : Bool :=
  -- the four `continue`s
  if isRecovery && p.ph.nRecs == 0 && p.ph.free == 0 then false
  else if isRecovery && p.ph.free > 0 && p.ph.garbage == 0 then false
  else if isRecovery && p.ph.free == 0 && p.ph.garbage == 0 then false
  else if isRecovery && p.ph.free > 16384 then false
  else p.fh.ptype == FilPageIndex && p.ph.level == 0 && p.ph.maxTrxId == 0 && !(isRecovery && p.ph.free == 0)

/-- parse.go:186-194: decode a selected page and print its rows -/
def printPage (env : Env) (tables : TableMap) (db name : Bytes) (isRecovery : Bool) (p : Page) :
    GoM PState Unit := do
  let rows ← parsePage env tables p.orig isRecovery p.ph.free
  if rows.length = 0 then return ()
  else GoM.zoom PState.out (fun t s => { s with out := t }) (makeReplaceIntoStatement env.ff rows name db)

/-- parse.go:157-196: the loop over the pages.  `parsePageHeader` works on a copy of the page. -/
def dataPagesLoop (env : Env) (tables : TableMap) (db name : Bytes) (isRecovery : Bool) :
    List Page → GoM PState Unit
  | [] => pure ()
  | p :: ps => do
    let p ← GoM.lift (parsePageHeader p)
    if pageSelected isRecovery p then
      printPage env tables db name isRecovery p
      dataPagesLoop env tables db name isRecovery ps
    else
      dataPagesLoop env tables db name isRecovery ps

/-- The state of `ibdata.Parse` as far as data pages are concerned, and standard output. -/
structure IState where
  tables : TableMap
  out : Out
deriving Repr, DecidableEq

/-- Write back the slice shared with the table it was taken from. -/
def writeBack (tables : TableMap) (db name : Bytes) (cols : List Column) : TableMap :=
  match lookupTable tables db name with
  | some e => tables.map fun t => if t.1 == e.1 then (t.1, { t.2 with columns := cols }) else t
  | none => tables

/-- parse.go:144-198 `ParseDataPage`; the result is the error.  The slice `fields` is shared with the dictionary
entry, so the values left in it by the walk stay there.  During the walk only `FieldValue` and `IsBinary` change,
which `ibRecInitOffsetsNew` does not read, so it is given the dictionary as it was. -/
def parseDataPage (env : Env) (file : File) (db name : Bytes) (isRecovery : Bool) : GoM IState (Option Bytes) :=
  match file with
  | .error e => pure (some e)
  | .ok content => do
    let pages ← GoM.lift (parseFile content)
    let s ← GoM.get
    let fields := getTableColumnsFromDict s.tables db name
    GoM.zoom (fun s => (⟨fields, s.out⟩ : PState))
      (fun t s => { s with tables := writeBack s.tables db name t.cols, out := t.out })
      (dataPagesLoop env s.tables db name isRecovery pages)
    return none

end Verif
