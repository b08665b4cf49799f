import Verif.Model.Utils
/-!
# Model of `recovery/ibdata/parse.go`, data pages

Logging (`logs.*`, glog) writes to log files and standard error only and is not modelled.
-/

namespace Verif

/-! ## Structures (recovery/ibdata/structure.go, const.go) -/

/-- structure.go:28-39 `Columns` -/
structure Column where
  name : Bytes := []
  ftype : Nat := 0
  mtype : Nat := 0
  pos : Nat := 0
  len : Nat := 0
  value : Val := .nil
  isNull : Bool := false
  isBinary : Bool := false
  isUnsigned : Bool := false
  tableId : Nat := 0
deriving Repr, DecidableEq

/-- structure.go:51-56 `Fields`.  `ColumnValue` is a scratch field of the redo parser, see `Model/Redo.lean`. -/
structure IdxField where
  pos : Nat
  name : Bytes
deriving Repr, DecidableEq

/-- structure.go:42-48 `Indexes` -/
structure Index where
  id : Nat
  name : Bytes
  fieldNum : Nat
  indexType : Nat
  fields : List IdxField := []
deriving Repr, DecidableEq

/-- A Go map with integer keys.  The list order stands for the (arbitrary) iteration order; keys are unique. -/
abbrev GoMap (α : Type) := List (Nat × α)

/-- `m[k]` with the `ok` result -/
def GoMap.get? {α} (m : GoMap α) (k : Nat) : Option α := List.lookup k m

/-- `m[k] = v` -/
def GoMap.put {α} (m : GoMap α) (k : Nat) (v : α) : GoMap α :=
  if m.any (·.1 == k) then m.map (fun e => if e.1 == k then (k, v) else e) else m ++ [(k, v)]

/-- structure.go:18-25 `Tables` -/
structure Table where
  db : Bytes := []
  name : Bytes := []
  columns : List Column := []
  indexes : GoMap Index := []
  nullCount : Nat := 0
  spaceId : Nat := 0
deriving Repr, DecidableEq

abbrev TableMap := GoMap Table

/-- structure.go:70-79 `FilHeader` -/
structure FilHeader where
  space : Nat
  offset : Nat
  prev : Nat
  next : Nat
  lsn : Nat
  ptype : Nat
  flushLsn : Nat
  archLogNo : Nat
deriving Repr, DecidableEq

/-- structure.go:85-100 `PageHeader` (the two segment headers are never assigned) -/
structure PageHeader where
  nDirSlots : Nat := 0
  heapTop : Nat := 0
  nHeap : Nat := 0
  free : Nat := 0
  garbage : Nat := 0
  lastInsert : Nat := 0
  direction : Nat := 0
  nDirection : Nat := 0
  nRecs : Nat := 0
  maxTrxId : Nat := 0
  level : Nat := 0
  indexId : Nat := 0
deriving Repr, DecidableEq

/-- structure.go:106-117 `SystemPageHeader` -/
structure SysHeader where
  rowId : Nat := 0
  tableId : Nat := 0
  indexId : Nat := 0
  maxSpaceId : Nat := 0
  mixIdLow : Nat := 0
  tables : Nat := 0
  tableIds : Nat := 0
  columns : Nat := 0
  indexes : Nat := 0
  fields : Nat := 0
deriving Repr, DecidableEq

/-- structure.go:120-133 `Page` -/
structure Page where
  fh : FilHeader
  ph : PageHeader
  orig : Bytes
  data : Bytes
deriving Repr, DecidableEq

/-- const.go:20 -/
def DefaultPageSize : Nat := 16384
/-- const.go:25 -/
def FilPageIndex : Nat := 17855

/-! ## Headers -/

/-- parse.go:248-297 `parseFilHeader` (its error result is always `nil`) -/
def parseFilHeader (data : Bytes) : Option Page := do
  let indexID ← read8 data (38 + 28)
  let space ← read4 data 0
  let offset ← read4 data 4
  let prev ← read4 data 8
  let next ← read4 data 12
  let lsn ← read8 data 16
  let ptype ← read2 data 24
  let flushLsn ← read8 data 26
  let arch ← read4 data 34
  let rest ← sliceFrom data 38
  return { fh := ⟨space, offset, prev, next, lsn, ptype, flushLsn, arch⟩,
           ph := { indexId := indexID }, orig := data, data := rest }

/-- parse.go:721-780 `parsePageHeader`.  The index id read at the end (2 of its 8 bytes) is only logged; the one in
`ph` is the one set by `parseFilHeader`. -/
def parsePageHeader (page : Page) : Option Page := do
  let d := page.data
  let nDirSlots ← read2 d 0
  let heapTop ← read2 d 2
  let nHeap ← read2 d 4
  let free ← read2 d 6
  let garbage ← read2 d 8
  let lastInsert ← read2 d 10
  let direction ← read2 d 12
  let nDirection ← read2 d 14
  let nRecs ← read2 d 16
  let maxTrxId ← read8 d 18
  let level ← read2 d 26
  let _ ← read2 d 28
  let rest ← sliceFrom d 30
  return { page with
    ph := ⟨nDirSlots, heapTop, nHeap, free, garbage, lastInsert, direction, nDirection, nRecs, maxTrxId, level,
           page.ph.indexId⟩,
    data := rest }

/-- parse.go:625-681 `parseSysPageHeader`: the dictionary header fields of `page.sp` -/
def parseSysPageHeader (page : Page) : Option SysHeader := do
  let d := page.data
  let rowId ← read8 d 0
  let tableId ← read8 d 8
  let indexId ← read8 d 16
  let maxSpaceId ← read4 d 24
  let mixIdLow ← read4 d 28
  let tables ← read4 d 32
  let tableIds ← read4 d 36
  let columns ← read4 d 40
  let indexes ← read4 d 44
  let fields ← read4 d 48
  return ⟨rowId, tableId, indexId, maxSpaceId, mixIdLow, tables, tableIds, columns, indexes, fields⟩

/-! ## Reading a file -/

/-- A file of the file system as seen by `os.Open`: an error text, or its contents. -/
abbrev File := Except Bytes Bytes

/-- utils.go:208-218 `ReadNextBytes` on a regular file whose remaining contents are `rest`: `none` is the `io.EOF`
error, otherwise the zero-padded buffer and what remains.  `File.Read` on a regular file is assumed to return as
many bytes as available and never to fail. -/
def readNextBytes (rest : Bytes) (number : Nat) : Option (Bytes × Bytes) :=
  if rest = [] then none
  else some (rest.take number ++ List.replicate (number - rest.length) 0, rest.drop number)

/-- parse.go:214-244, the loop of `parseFile`.  `seen` are the keys of `pageMap`.  `fuel` bounds the iterations
(each consumes at least one byte).  A panic of `parseFilHeader` cannot happen on a full page; it is kept as `none`. -/
def parseFileLoop : Nat → Bytes → List Nat → List Page → Option (List Page)
  | 0, _, _, pages => some pages
  | fuel + 1, rest, seen, pages =>
    match readNextBytes rest DefaultPageSize with
    | none => some pages
    | some (data, rest) => do
      let page ← parseFilHeader data
      if seen.contains page.fh.offset then
        parseFileLoop fuel rest seen pages
      else
        parseFileLoop fuel rest (page.fh.offset :: seen) (pages ++ [page])

/-- parse.go:202-246 `parseFile` on the contents of the file -/
def parseFile (content : Bytes) : Option (List Page) := parseFileLoop content.length content [] []

/-! ## Record offsets -/

/-- parse.go:1088-1093, conversion of a one-byte end info -/
def oldConv1 (offs : Nat) : Nat :=
  let offs := if offs &&& 0x80 ≠ 0 then (andNot64 offs 0x80) ||| (1 <<< 31) else offs
  offs &&& 0xffff

/-- parse.go:1104-1118, conversion of a two-byte end info -/
def oldConv2 (offs : Nat) : Nat :=
  let offs := if offs &&& 0x8000 ≠ 0 then (andNot64 offs 0x8000) ||| (1 <<< 31) else offs
  let offs := if offs &&& 0x4000 ≠ 0 then (andNot64 offs 0x8000) ||| (1 <<< 30) else offs
  offs &&& 0xffff

/-- The loops parse.go:1085-1097 and 1102-1120: `k` fields remain, the next is `i`. -/
def oldLoop (info : Nat → Option Nat) (conv : Nat → Nat) : Nat → Nat → List Nat → Option (List Nat)
  | 0, _, offsets => some offsets
  | k + 1, i, offsets => do
    let offs ← info i
    let offsets ← setIdx offsets (2 + (1 + i)) (conv offs)
    oldLoop info conv k (i + 1) offsets

/-- parse.go:1071-1122 `ibRecInitOffsetsOld`.  `o` is always `d[offset:]`, so `len(d)-len(o)` is `offset`. -/
def ibRecInitOffsetsOld (d : Bytes) (offset : Nat) (offsets : List Nat) (fieldNum : Nat) : Option (List Nat) := do
  let offsets ← setIdx offsets 2 0
  let offsets ← setIdx offsets 1 fieldNum
  let num ← recGet1byteOffsFlag d offset
  if num ≠ 0 then
    let offsets ← setIdx offsets 2 (6 + fieldNum)
    oldLoop (fun i => rec1GetFieldEndInfo d offset i) oldConv1 fieldNum 0 offsets
  else
    let offsets ← setIdx offsets 2 (6 + 2 * fieldNum)
    oldLoop (fun i => rec2GetFieldEndInfo d offset i) oldConv2 fieldNum 0 offsets

/-- The local variables of the loop of `ibRecInitOffsetsNew`: the slices `nulls` and `lens` are represented by
their start positions in `d`. -/
structure NewSt where
  nulls : Nat
  lens : Nat
  offs : Nat
  nullMask : Nat
deriving Repr, DecidableEq

/-- `x = d[(len(d) - len(x) - 1):]` for a suffix `x` of `d` starting at `p` -/
def backOne (p : Nat) : Option Nat := if 1 ≤ p then some (p - 1) else none

/-- parse.go:1159-1193: a column that is not NULL.  Returns the value stored in the offsets array. -/
def newNotNull (d : Bytes) (c : Column) (st : NewSt) : Option (Nat × NewSt) :=
  if getFixedLength c.ftype c.len = 0 then do
    let length := (← d[st.lens]?).toNat
    let lens ← backOne st.lens
    if (c.len > 255 ∨ c.ftype = DATA_BLOB) ∧ length &&& 0x80 ≠ 0 then
      let temp := (← d[lens]?).toNat
      let lens ← backOne lens
      let length := (length <<< 8) ||| temp
      let offs := st.offs + (length &&& 0x3fff)
      let length := if length &&& 0x4000 ≠ 0 then offs ||| (1 <<< 30) else offs
      return (length, { st with lens := lens, offs := offs })
    else
      let offs := st.offs + length
      return (offs, { st with lens := lens, offs := offs })
  else
    let offs := st.offs + getFixedLength c.ftype c.len
    some (offs, { st with offs := offs })

/-- parse.go:1140-1195: the body of the loop up to `offs &= 0xffff`. -/
def newStep (d : Bytes) (c : Column) (st : NewSt) : Option (Nat × NewSt) := do
  let (length, st) ←
    if c.isNull then do
      let st ← if st.nullMask % 256 = 0 then do
          pure { st with nulls := (← backOne st.nulls), nullMask := 1 }
        else pure st
      let nb := (← d[st.nulls]?).toNat
      if nb &&& (st.nullMask % 256) ≠ 0 then
        pure (st.offs ||| (1 <<< 31), { st with nullMask := st.nullMask <<< 1 })
      else
        newNotNull d c { st with nullMask := st.nullMask <<< 1 }
    else newNotNull d c st
  return (length, { st with offs := st.offs &&& 0xffff })

/-- parse.go:1139-1197: the loop of `ibRecInitOffsetsNew`, from column index `i` on. -/
def newLoop (d : Bytes) : List Column → Nat → NewSt → List Nat → Option (List Nat)
  | [], _, _, offsets => some offsets
  | c :: cs, i, st, offsets => do
    let (length, st) ← newStep d c st
    let offsets ← setIdx offsets (2 + (1 + i)) length
    newLoop d cs (i + 1) st offsets

/-- parse.go:1126-1199 `ibRecInitOffsetsNew` (always returns `true`).  `o` is always `d[offset:]`. -/
def ibRecInitOffsetsNew (d : Bytes) (offset : Nat) (offsets : List Nat) (table : Table) : Option (List Nat) := do
  let offsets ← setIdx offsets 2 0
  let offsets ← setIdx offsets 1 table.columns.length
  -- nulls := d[(len(d) - len(o) - (5 + 1)):]
  let nulls ← if 6 ≤ offset ∧ offset ≤ d.length then some (offset - 6) else none
  let lens ← if (table.nullCount + 7) / 8 ≤ nulls then some (nulls - (table.nullCount + 7) / 8) else none
  newLoop d table.columns 0 ⟨nulls, lens, 0, 1⟩ offsets

/-- parse.go:1029-1045 `checkFieldSize`, from column index `i` on -/
def checkFieldSizeAux (offsets : List Nat) : List Column → Nat → Option Bool
  | [], _ => some true
  | c :: cs, i =>
    if getFixedLength c.ftype c.len ≠ 0 then do
      let dataLen ← recOffsNthSize offsets i
      if dataLen = 0 ∧ c.isNull then checkFieldSizeAux offsets cs (i + 1)
      else if c.len ≠ 0 ∧ dataLen ≠ getFixedLength c.ftype c.len then return false
      else checkFieldSizeAux offsets cs (i + 1)
    else checkFieldSizeAux offsets cs (i + 1)

/-- parse.go:1029-1045 `checkFieldSize` -/
def checkFieldSize (offsets : List Nat) (columns : List Column) : Option Bool :=
  checkFieldSizeAux offsets columns 0

/-! ## Records -/

/-- parse.go:933-951, one column: the new contents of `columns[i]`. -/
def parseField (env : Env) (o : Bytes) (offsets : List Nat) (i : Nat) (c : Column) : GoM Out Column := do
  let (data, fieldLen) ← GoM.lift (recGetNthField o offsets i)
  if data.length < fieldLen then
    if fieldLen = 0xFFFFFFFF then return { c with value := .str (b! "NULL") }
    else return c
  else
    let (v, isBinary) ← parseData env c.ftype c.mtype data fieldLen (getFixedLength c.ftype c.len)
      c.isUnsigned c.isBinary
    return { c with value := v, isBinary := isBinary }

/-- parse.go:933-952, the loop of `parseRecords` from column index `i` on.  The Go code overwrites the elements of
the slice `columns` in place; the model returns the new contents.  (A panic is never recovered here, so partially
written columns are not observable.) -/
def parseRecordsLoop (env : Env) (o : Bytes) (offsets : List Nat) : Nat → List Column → GoM Out (List Column)
  | _, [] => pure []
  | i, c :: cs => do
    let c' ← parseField env o offsets i c
    let cs' ← parseRecordsLoop env o offsets (i + 1) cs
    return c' :: cs'

/-- The state of a page walk: the contents of the (shared, mutated) slice `columns`, and standard output. -/
structure PState where
  cols : List Column
  out : Out
deriving Repr, DecidableEq

/-- parse.go:930-958 `parseRecords`: returns a copy of the columns; the slice itself keeps the values. -/
def parseRecords (env : Env) (o : Bytes) (offsets : List Nat) : GoM PState (List Column) := do
  let s ← GoM.get
  let cs ← GoM.zoom PState.out (fun t s => { s with out := t }) (parseRecordsLoop env o offsets 0 s.cols)
  GoM.modify (fun s => { s with cols := cs })
  let _ ← GoM.lift (recOffsDataSize offsets)
  return cs

/-- Position of the infimum and supremum records, parse.go:822-842. -/
def pageInfimum (compact : Bool) : Nat := if compact then 38 + 36 + 2 * 10 + 5 else 38 + 36 + 2 * 10 + 1 + 6
def pageSupremum (compact : Bool) : Nat :=
  if compact then 38 + 36 + 2 * 10 + 2 * 5 + 8 else 38 + 36 + 2 * 10 + 2 + 2 * 6 + 8

/-- parse.go:866-884: the offsets array of the record at `offset`; `some none` is the case that the table id of the
first column is unknown (`break`). -/
def recOffsets (tables : TableMap) (data : Bytes) (compact : Bool) (offset : Nat) (cols : List Column) :
    Option (Option (List Nat)) := do
  let offsets := List.replicate (cols.length * 2) 0
  let _ ← sliceFrom data offset
  if compact then
    let c0 ← cols[0]?
    match tables.get? c0.tableId with
    | none => return none
    | some table => return some (← ibRecInitOffsetsNew data offset offsets table)
  else
    return some (← ibRecInitOffsetsOld data offset offsets cols.length)

/-- parse.go:862-896, the body of the walk for the record at `offset`: `none` means `break`, otherwise the row. -/
def parseOne (env : Env) (tables : TableMap) (data : Bytes) (compact : Bool) (offset : Nat) :
    GoM PState (Option (List Column)) := do
  let s ← GoM.get
  match ← GoM.lift (recOffsets tables data compact offset s.cols) with
  | none => return none
  | some offsets =>
    if ← GoM.lift (checkFieldSize offsets s.cols) then
      let o ← GoM.lift (sliceFrom data offset)
      let c ← parseRecords env o offsets
      let _ ← GoM.lift (recOffsSize offsets)
      return some c
    else return none

/-- parse.go:899-917: where the walk goes after the record at `offset`; `some none` is the end of the list. -/
def nextOffset (data : Bytes) (compact : Bool) (offset : Nat) : Option (Option Nat) := do
  let b ← read2 data (sub64 offset 2)
  if b = 0 then return none
  let b := if b > 32768 then sub64 b 65536 else b
  return some (if compact then u64 (offset + b) else b)

/-- parse.go:859-924: the walk over the records of a page.  The Go loop is unbounded; the model stops with `hang`
after `fuel` records.  (`Props/Walk.lean` proves that exhausting the fuel of `parsePage` means that the loop never
ends.) -/
def walk (env : Env) (tables : TableMap) (data : Bytes) (compact : Bool) :
    Nat → Nat → List (List Column) → GoM PState (List (List Column))
  | 0, _, _ => GoM.hang
  | fuel + 1, offset, rows => do
    if offset < 16384 - 6 ∧ offset ≠ pageSupremum compact then
      match ← parseOne env tables data compact offset with
      | none => return rows
      | some c =>
        let rows := rows ++ [c]
        match ← GoM.lift (nextOffset data compact offset) with
        | none => return rows
        | some offset => walk env tables data compact fuel offset rows
    else
      let _ ← GoM.lift (read2 data (38 + 24))
      return rows

/-- More than the number of offsets a record can have (parse.go:861). -/
def walkFuel : Nat := 16384

/-- parse.go:793-926 `parsePage`.  The parameter `pos` of the Go function is not used and is omitted. -/
def parsePage (env : Env) (tables : TableMap) (data : Bytes) (isRecovery : Bool) (pageFree : Nat) :
    GoM PState (List (List Column)) := do
  let compact := (← GoM.lift (pageIsCompact data)) != 0
  let b ← GoM.lift (read2 data (pageInfimum compact - 2))
  let offset := if isRecovery then pageFree else if compact then pageInfimum compact + b else b
  walk env tables data compact walkFuel offset []

end Verif
