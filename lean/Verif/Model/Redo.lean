import Verif.Model.Dict
/-!
# Model of `recovery/redo/parse.go` and `recovery/redo/mlog.go`

The state is the cursor (`*pos`) and standard output.  The cursor is a `Nat`: it never exceeds the length of the
stream by more than a few 32-bit numbers, so the `uint64` of the code does not wrap.
Errors returned by handlers are kept as results; most of them are ignored by the caller.
-/

namespace Verif

/-! ## Record types (recovery/redo/const.go:37-238) -/

def MLOG_SINGLE_REC_FLAG : Nat := 128
def MLOG_1BYTE : Nat := 1
def MLOG_2BYTES : Nat := 2
def MLOG_4BYTES : Nat := 4
def MLOG_8BYTES : Nat := 8
def MLOG_REC_INSERT : Nat := 9
def MLOG_REC_CLUST_DELETE_MARK : Nat := 10
def MLOG_REC_SEC_DELETE_MARK : Nat := 11
def MLOG_REC_UPDATE_IN_PLACE : Nat := 13
def MLOG_REC_DELETE : Nat := 14
def MLOG_LIST_END_DELETE : Nat := 15
def MLOG_LIST_START_DELETE : Nat := 16
def MLOG_LIST_END_COPY_CREATED : Nat := 17
def MLOG_PAGE_REORGANIZE : Nat := 18
def MLOG_PAGE_CREATE : Nat := 19
def MLOG_UNDO_INSERT : Nat := 20
def MLOG_UNDO_ERASE_END : Nat := 21
def MLOG_UNDO_INIT : Nat := 22
def MLOG_UNDO_HDR_DISCARD : Nat := 23
def MLOG_UNDO_HDR_REUSE : Nat := 24
def MLOG_UNDO_HDR_CREATE : Nat := 25
def MLOG_REC_MIN_MARK : Nat := 26
def MLOG_IBUF_BITMAP_INIT : Nat := 27
def MLOG_INIT_FILE_PAGE : Nat := 29
def MLOG_WRITE_STRING : Nat := 30
def MLOG_MULTI_REC_END : Nat := 31
def MLOG_DUMMY_RECORD : Nat := 32
def MLOG_FILE_CREATE : Nat := 33
def MLOG_FILE_RENAME : Nat := 34
def MLOG_FILE_DELETE : Nat := 35
def MLOG_COMP_REC_MIN_MARK : Nat := 36
def MLOG_COMP_PAGE_CREATE : Nat := 37
def MLOG_COMP_REC_INSERT : Nat := 38
def MLOG_COMP_REC_CLUST_DELETE_MARK : Nat := 39
def MLOG_COMP_REC_SEC_DELETE_MARK : Nat := 40
def MLOG_COMP_REC_UPDATE_IN_PLACE : Nat := 41
def MLOG_COMP_REC_DELETE : Nat := 42
def MLOG_COMP_LIST_END_DELETE : Nat := 43
def MLOG_COMP_LIST_START_DELETE : Nat := 44
def MLOG_COMP_LIST_END_COPY_CREATED : Nat := 45
def MLOG_COMP_PAGE_REORGANIZE : Nat := 46
def MLOG_FILE_CREATE2 : Nat := 47
def MLOG_ZIP_WRITE_NODE_PTR : Nat := 48
def MLOG_ZIP_WRITE_BLOB_PTR : Nat := 49
def MLOG_ZIP_WRITE_HEADER : Nat := 50
def MLOG_ZIP_PAGE_COMPRESS : Nat := 51
def MLOG_ZIP_PAGE_COMPRESS_NO_DATA : Nat := 52
def MLOG_ZIP_PAGE_REORGANIZE : Nat := 53
def MLOG_FILE_RENAME2 : Nat := 54
def MLOG_FILE_NAME : Nat := 55
def MLOG_CHECKPOINT : Nat := 56
def MLOG_PAGE_CREATE_RTREE : Nat := 57
def MLOG_COMP_PAGE_CREATE_RTREE : Nat := 58
def MLOG_INIT_FILE_PAGE2 : Nat := 59
def MLOG_TRUNCATE : Nat := 60
def MLOG_INDEX_LOAD : Nat := 61

/-! Undo record types, const.go:242-262 -/
def TRX_UNDO_INSERT_REC : Nat := 11
def TRX_UNDO_UPD_EXIST_REC : Nat := 12
def TRX_UNDO_CMPL_INFO_MULT : Nat := 16
def TRX_UNDO_UPD_EXTERN : Nat := 128

/-! ## State -/

/-- The cursor into the redo stream and standard output. -/
structure RS where
  pos : Nat
  out : Out
deriving Repr, DecidableEq

abbrev RM := GoM RS

/-- The redo stream: `data` are the bytes; `spare` zero bytes follow within the capacity of the slice (the slice is
built with `append`, which may leave unused capacity). -/
structure Stream where
  data : Bytes
  spare : Nat := 0

/-- `redo.Parse` (parse.go:30-39) and the environment -/
structure RCfg where
  env : Env
  tables : TableMap
  tableName : Bytes
  dbName : Bytes

def getPos : RM Nat := fun s => .ok s.pos s
def addPos (n : Nat) : RM Unit := GoM.modify fun s => { s with pos := s.pos + n }
def setPos (n : Nat) : RM Unit := GoM.modify fun s => { s with pos := n }

/-- run a reader of the form `f(data, *pos)` or `f(data[*pos:])` -/
def here {α} (f : Bytes → Nat → Option α) (d : Bytes) : RM α := fun s =>
  match f d s.pos with
  | some a => .ok a s
  | none => .panic s

/-- run code that only prints -/
def outM {α} (m : GoM Out α) : RM α := GoM.zoom RS.out (fun t s => { s with out := t }) m

/-- `utils.MatchUllReadComPressed(data, pos)` -/
def ullReadCompressed (d : Bytes) : RM Nat :=
  GoM.zoom (fun s => (s.pos, s.out)) (fun t _ => ⟨t.1, t.2⟩) (matchUllReadComPressed d)

/-- `data[lo:hi]`, which Go checks against the capacity of `data` -/
def sliceCap (s : Stream) (lo hi : Nat) : Option Bytes :=
  if lo ≤ hi ∧ hi ≤ s.data.length + s.spare then
    some (((s.data ++ List.replicate s.spare 0).drop lo).take (hi - lo))
  else none

/-- The slice handed to `ParseData`.  `ParseFloat` and `ParseDouble` (utils.go:890-901) reslice it (`data[:4]`), which Go
checks against its capacity, so for these two types they see everything up to the capacity of the stream; the other
decoders see `v`, the bytes up to its length. -/
def withSpare (s : Stream) (ftype pos : Nat) (v : Bytes) : Bytes :=
  if ftype = DATA_FLOAT ∨ ftype = DATA_DOUBLE then (s.data ++ List.replicate s.spare 0).drop pos else v

/-! ## Handlers (recovery/redo/mlog.go) -/

/-- mlog.go:27-55 `mlogNBytes` -/
def mlogNBytes (d : Bytes) (myType : Nat) : RM (Option Bytes) := do
  let _offset ← here read2 d
  addPos 2
  if myType = MLOG_8BYTES then
    let pc ← here matchParseCompressed d
    match pc.err with
    | some e => return some e
    | none =>
      addPos (matchGetCompressedSize pc.val)
      addPos 4
      return none
  else
    let pc ← here matchParseCompressed d
    addPos pc.num
    return pc.err

/-- mlog.go:58-68 `mlogRecSecDeleteMark` -/
def mlogRecSecDeleteMark (d : Bytes) : RM Unit := do
  let _value ← here read1 d
  addPos 1
  let _offset ← here read2 d
  addPos 2

/-- mlog.go:321-331 `mlogUndoInit` -/
def mlogUndoInit (d : Bytes) : RM (Option Bytes) := do
  let pc ← here matchParseCompressed d
  match pc.err with
  | some e => return some e
  | none => do addPos pc.num; return none

/-- mlog.go:334-338 `mlogUndoHdrReuse` -/
def mlogUndoHdrReuse (d : Bytes) : RM Unit := do
  let _ ← ullReadCompressed d

/-- mlog.go:341-358 `mlogUndoHdrCreate` -/
def mlogUndoHdrCreate (d : Bytes) : RM Unit := do
  let pc ← here matchParseCompressed d
  addPos (matchGetCompressedSize pc.val)
  addPos 4

/-- mlog.go:361-372 `mlogWriteString` -/
def mlogWriteString (d : Bytes) : RM Unit := do
  let _offset ← here read2 d
  addPos 2
  let len ← here read2 d
  addPos 2
  addPos len

/-- mlog.go:375-387 `mlogFileOp` -/
def mlogFileOp (d : Bytes) (myType : Nat) : RM Unit := do
  if myType = MLOG_FILE_CREATE2 then
    let _flags ← here read4 d
    addPos 4
  let nameLen ← here read2 d
  addPos 2
  addPos nameLen

/-- `position, err := utils.ParseIndex(comp, data, *pos)`, then `*pos = position` unless there was an error -/
def parseIndexHere (comp : Bool) (d : Bytes) : RM (Option Bytes) := do
  let r ← here (parseIndex comp) d
  match r.2 with
  | some e => return some e
  | none => do setPos r.1; return none

/-- `position, err := utils.ParseInsertRecord(isShort, data, *pos)`, then `*pos = position` unless there was an
error -/
def parseInsertHere (isShort : Bool) (d : Bytes) : RM (Option Bytes) := do
  let pos ← getPos
  let r ← outM (parseInsertRecord isShort d pos)
  match r.2 with
  | some e => return some e
  | none => do setPos r.1; return none

/-- mlog.go:395-415 `mlogRecInsert` -/
def mlogRecInsert (d : Bytes) (myType : Nat) : RM (Option Bytes) := do
  match ← parseIndexHere (myType = MLOG_COMP_REC_INSERT) d with
  | some e => return some e
  | none => parseInsertHere false d

/-- mlog.go:418-459 `mlogRecClustDeleteMark` -/
def mlogRecClustDeleteMark (d : Bytes) (myType : Nat) : RM (Option Bytes) := do
  match ← parseIndexHere (myType = MLOG_COMP_REC_CLUST_DELETE_MARK) d with
  | some e => return some e
  | none =>
    let _flags ← here read1 d
    addPos 1
    let _value ← here read1 d
    addPos 1
    let pc ← here matchParseCompressed d
    match pc.err with
    | some e => return some e
    | none =>
      addPos pc.num
      let _rollPtr ← here read7 d
      addPos 7
      let _trxID ← ullReadCompressed d
      let _offset ← here read2 d
      addPos 2
      return none

/-- mlog.go:462-470 `mlogCompRecSecDeleteMark` -/
def mlogCompRecSecDeleteMark (d : Bytes) : RM (Option Bytes) := parseIndexHere true d

def errTooShort2 : Bytes := b! "data is too short"

/-- mlog.go:527-543: the loop over the updated fields; `n` remain -/
def updFieldsLoop (d : Bytes) : Nat → RM (Option Bytes)
  | 0 => pure none
  | n + 1 => do
    let pc ← here matchParseCompressed d
    match pc.err with
    | some e => return some e
    | none =>
      addPos pc.num
      let pc ← here matchParseCompressed d
      match pc.err with
      | some e => return some e
      | none =>
        addPos pc.num
        addPos pc.val
        updFieldsLoop d n

/-- mlog.go:483-546: the body of `mlogRecUpdateInPlace` -/
def updInPlaceBody (d : Bytes) (myType : Nat) : RM (Option Bytes) := do
  match ← parseIndexHere (myType = MLOG_COMP_REC_UPDATE_IN_PLACE) d with
  | some e => return some e
  | none =>
    let _flag ← here read1 d
    addPos 1
    let pc ← here matchParseCompressed d
    match pc.err with
    | some e => return some e
    | none =>
      addPos pc.num
      if d.length < (← getPos) + 7 then return some errTooShort2
      else
        let _rollPtr ← here read7 d
        addPos 7
        let _trxID ← ullReadCompressed d
        let _recordOffset ← here read2 d
        addPos 2
        let _infoBits ← here read1 d
        addPos 1
        let pc ← here matchParseCompressed d
        match pc.err with
        | some e => return some e
        | none =>
          addPos pc.num
          updFieldsLoop d pc.val

/-- mlog.go:473-547 `mlogRecUpdateInPlace`: a panic is recovered and leaves the cursor where it was -/
def mlogRecUpdateInPlace (d : Bytes) (myType : Nat) : RM (Option Bytes) :=
  GoM.recover (updInPlaceBody d myType) none id

/-- mlog.go:550-566 `mlogRecDelete` and mlog.go:569-587 `mlogListDelete` (same body, `comp` differs) -/
def mlogDeleteBody (d : Bytes) (comp : Bool) : RM (Option Bytes) := do
  match ← parseIndexHere comp d with
  | some e => return some e
  | none =>
    let _offset ← here read2 d
    addPos 2
    return none

/-- mlog.go:550-566 -/
def mlogRecDelete (d : Bytes) (myType : Nat) : RM (Option Bytes) :=
  mlogDeleteBody d (myType = MLOG_COMP_REC_DELETE)

/-- mlog.go:569-587 -/
def mlogListDelete (d : Bytes) (myType : Nat) : RM (Option Bytes) :=
  mlogDeleteBody d (myType = MLOG_COMP_LIST_START_DELETE ∨ myType = MLOG_COMP_LIST_END_DELETE)

/-- mlog.go:614-631: the loop of `mlogListEndCopyCreated`; every iteration consumes at least one byte, so
`fuel = recEnd` is enough. -/
def copyLoop (d : Bytes) (recEnd : Nat) : Nat → RM (Option Bytes)
  | 0 => GoM.hang
  | fuel + 1 => do
    if (← getPos) < recEnd then
      match ← parseInsertHere true d with
      | some e => return some e
      | none => copyLoop d recEnd fuel
    else return none

/-- mlog.go:590-634 `mlogListEndCopyCreated` -/
def mlogListEndCopyCreated (d : Bytes) (myType : Nat) : RM (Option Bytes) := do
  match ← parseIndexHere (myType = MLOG_COMP_LIST_END_COPY_CREATED) d with
  | some e => return some e
  | none =>
    let logDataLen ← here read4 d
    addPos 4
    let recEnd := (← getPos) + logDataLen
    if recEnd > d.length then return some (b! "data too short")
    else copyLoop d recEnd (recEnd + 1)

/-- mlog.go:637-651 `mlogPageReorganize` -/
def mlogPageReorganize (d : Bytes) (myType : Nat) : RM (Option Bytes) := do
  match ← parseIndexHere (myType ≠ MLOG_PAGE_REORGANIZE) d with
  | some e => return some e
  | none =>
    if myType = MLOG_ZIP_PAGE_REORGANIZE then
      let _level ← here read1 d
      addPos 1
    return none

/-- mlog.go:654-668 `mlogZipWriteNodePtr` -/
def mlogZipWriteNodePtr (d : Bytes) : RM Unit := do
  let _offset ← here read2 d
  addPos 2
  let _zOffset ← here read2 d
  addPos 2
  addPos 4

/-- mlog.go:676-689 `mlogZipWriteHeader` -/
def mlogZipWriteHeader (d : Bytes) : RM Unit := do
  let _offset ← here read1 d
  addPos 1
  let dataLen ← here read1 d
  addPos 1
  addPos dataLen

/-- mlog.go:692-702 `mlogZipPageCompress` -/
def mlogZipPageCompress (d : Bytes) : RM Unit := do
  let size ← here read2 d
  addPos 2
  let trailerSize ← here read2 d
  addPos 2
  addPos (8 + size + trailerSize)

/-- mlog.go:705-720 `mlogZipPageCompressNoData` -/
def mlogZipPageCompressNoData (d : Bytes) : RM (Option Bytes) := do
  match ← parseIndexHere true d with
  | some e => return some e
  | none =>
    let _level ← here read1 d
    addPos 1
    return none

/-! ## Undo records -/

/-- A primary-key column with the value set by mlog.go:158 (`Fields.ColumnValue`).  The Go code writes the value
into the dictionary's `Fields`; it is always overwritten before it is printed, so the model keeps it locally. -/
structure PkVal where
  name : Bytes
  value : Val
deriving Repr, DecidableEq

/-- A column of the update vector with its old value (the copy made by `getColumnByPos`). -/
structure UpdCol where
  name : Bytes
  value : Val
deriving Repr, DecidableEq

/-- mlog.go:273-287 `getPrimaryKey` (the error is always `nil`).  The last matching index in iteration order wins. -/
def getPrimaryKey : List (Nat × Index) → List IdxField → List IdxField
  | [], fields => fields
  | ix :: ixs, fields =>
    let n := trimSpace ix.2.name
    if n = b! "PRIMARY" ∨ n = b! "GEN_CLUST_INDEX" then
      if n = b! "GEN_CLUST_INDEX" then getPrimaryKey ixs [⟨0, b! "DB_ROW_ID"⟩]
      else getPrimaryKey ixs ix.2.fields
    else getPrimaryKey ixs fields

/-- mlog.go:289-296 `getColumnsByName` -/
def getColumnsByName (table : Table) (name : Bytes) : Column :=
  (table.columns.find? (·.name == name)).getD {}

/-- mlog.go:298-306 `getColumnByPos` -/
def getColumnByPos (table : Table) (pos : Nat) : Option Column := table.columns[pos]?

/-- Join with `" and "` the way parse.go:526-538 and 542-549 do. -/
def joinAnd : List Bytes → Bytes
  | [] => []
  | [x] => x
  | x :: xs => x ++ b! " and " ++ joinAnd xs

/-- parse.go:527-532: one assignment -/
def setText (ff : FloatFmt) (c : UpdCol) : Bytes :=
  if c.value ≠ .nil then b! "`" ++ c.name ++ b! "`='" ++ fmtV ff c.value ++ b! "'"
  else b! "`" ++ c.name ++ b! "`=NULL"

/-- parse.go:543: one condition -/
def whereText (ff : FloatFmt) (v : PkVal) : Bytes :=
  b! "`" ++ v.name ++ b! "`='" ++ fmtV ff v.value ++ b! "'"

/-- The statement built by parse.go:520-552 `makeSQL` -/
def updateStmt (ff : FloatFmt) (table : Table) (pk : List PkVal) (cols : List UpdCol) : Bytes :=
  b! "update `" ++ table.db ++ b! "`.`" ++ table.name ++ b! "` set " ++ joinAnd (cols.map (setText ff)) ++
  b! " where " ++ joinAnd (pk.map (whereText ff)) ++ b! ";"

/-- parse.go:520-556 `makeSQL` -/
def makeSQL (ff : FloatFmt) (table : Table) (pk : List PkVal) (cols : List UpdCol) : RM Unit :=
  outM (println (updateStmt ff table pk cols))

/-- mlog.go:218-228: is the statement printed? -/
def filterPrints (cfg : RCfg) (table : Table) : Bool :=
  if table.db == cfg.dbName then
    if table.name == cfg.tableName then true
    else cfg.tableName == []
  else if cfg.dbName == [] && cfg.tableName == [] then true
  else cfg.tableName != [] && cfg.tableName == table.name

/-- Result of a piece of code that may return an error from the middle of the function. -/
abbrev Ret (α : Type) := Except Bytes α

/-- mlog.go:139-161: the loop over the primary key -/
def pkLoop (cfg : RCfg) (s : Stream) (table : Table) : List IdxField → RM (Ret (List PkVal))
  | [] => pure (.ok [])
  | f :: fs => do
    let column := getColumnsByName table f.name
    let pc ← here matchParseCompressed s.data
    match pc.err with
    | some e => return .error e
    | none =>
      addPos pc.num
      let pos ← getPos
      let slice ← GoM.lift (sliceCap s pos (pos + pc.val))
      let v ← outM (parseData cfg.env column.ftype column.mtype (withSpare s column.ftype pos slice) pc.val
        (getFixedLength column.ftype column.len) column.isUnsigned column.isBinary)
      addPos pc.val
      match ← pkLoop cfg s table fs with
      | .error e => return .error e
      | .ok rest => return .ok (⟨f.name, v.1⟩ :: rest)

/-- mlog.go:195-206: the old value of a column of the update vector, and the number of bytes it takes -/
def updValue (cfg : RCfg) (s : Stream) (c : Column) (pos len : Nat) : RM (Val × Nat) :=
  if pos + len > s.data.length then pure (Val.nil, 0)
  else do
    let rest ← GoM.lift (sliceFrom s.data pos)
    let v ← outM (parseData cfg.env c.ftype c.mtype (withSpare s c.ftype pos rest) len (getFixedLength c.ftype c.len) c.isUnsigned c.isBinary)
    return (v.1, len)

/-- mlog.go:176-213: the loop over the update vector; `n` remain.  The error of the length read (mlog.go:191) is not
checked. -/
def updLoop (cfg : RCfg) (s : Stream) (table : Table) : Nat → RM (Ret (List UpdCol))
  | 0 => pure (.ok [])
  | n + 1 => do
    let pc ← here matchParseCompressed s.data
    match pc.err with
    | some e => return .error e
    | none =>
      addPos pc.num
      match getColumnByPos table pc.val with
      | none => return .error (b! "field not found")
      | some c =>
        let fl ← here matchParseCompressed s.data
        addPos fl.num
        let pos ← getPos
        let v ← updValue cfg s c pos fl.val
        addPos v.2
        match ← updLoop cfg s table n with
        | .error e => return .error e
        | .ok rest => return .ok (⟨c.name, v.1⟩ :: rest)

/-- mlog.go:115-125: info bits, transaction id and roll pointer, absent in undo records of inserts -/
def skipSysColumns (d : Bytes) (undoType : Nat) : RM Unit :=
  if undoType ≠ TRX_UNDO_INSERT_REC then do
    let _infoBits ← here read1 d
    addPos 1
    let _trxID ← ullReadCompressed d
    let _rollPtr ← ullReadCompressed d
    return ()
  else pure ()

/-- mlog.go:132-270: the rest of the body of `mlogUndoInsert`, once the table is known -/
def undoTable (cfg : RCfg) (s : Stream) (startPos dataLen undoType : Nat) (table : Table) : RM (Option Bytes) := do
  match ← pkLoop cfg s table (getPrimaryKey table.indexes []) with
  | .error e => return some e
  | .ok pk =>
    if undoType = TRX_UNDO_UPD_EXIST_REC then
      let pc ← here matchParseCompressed s.data
      match pc.err with
      | some e => return some e
      | none =>
        addPos pc.num
        match ← updLoop cfg s table pc.val with
        | .error e => return some e
        | .ok cols =>
          (if filterPrints cfg table then makeSQL cfg.env.ff table pk cols else pure ())
          setPos (startPos + dataLen)
          return none
    else
      setPos (startPos + dataLen)
      return none

/-- mlog.go:88-270: the body of `mlogUndoInsert` after the length field -/
def undoBody (cfg : RCfg) (s : Stream) (startPos dataLen : Nat) : RM (Option Bytes) := do
  let d := s.data
  let typeCmpl := andNot64 (← here read1 d) TRX_UNDO_UPD_EXTERN
  addPos 1
  let undoType := typeCmpl &&& (TRX_UNDO_CMPL_INFO_MULT - 1)
  let rest ← here sliceFrom d
  let (undoNo, err) ← GoM.lift (matchUllReadMuchCompressed rest)
  match err with
  | some e => do setPos (startPos + dataLen); return some e
  | none =>
    addPos (machUllGetMuchCompressedSize undoNo)
    let rest ← here sliceFrom d
    let (tableID, err) ← GoM.lift (matchUllReadMuchCompressed rest)
    match err with
    | some e => do setPos (startPos + dataLen); return some e
    | none =>
      addPos (machUllGetMuchCompressedSize tableID)
      skipSysColumns d undoType
      match cfg.tables.get? tableID with
      | none => do
        setPos (startPos + dataLen)
        return some (b! "table not found, table id is " ++ dec tableID)
      | some table =>
        undoTable cfg s startPos dataLen undoType table

/-- mlog.go:73-271 `mlogUndoInsert`.  The length field is read before the `defer` is installed; afterwards a panic is
recovered and the cursor is set to the end of the record. -/
def mlogUndoInsert (cfg : RCfg) (s : Stream) : RM (Option Bytes) := do
  let dataLen ← here read2 s.data
  addPos 2
  let startPos ← getPos
  GoM.recover (undoBody cfg s startPos dataLen) none (fun st => { st with pos := startPos + dataLen })

/-! ## The record loop (recovery/redo/parse.go) -/

/-- parse.go:464-518 `validateLogHeader`; the space id is not used -/
def validateLogHeader (logType : Nat) : Bool :=
  [MLOG_1BYTE, MLOG_2BYTES, MLOG_4BYTES, MLOG_8BYTES, MLOG_REC_SEC_DELETE_MARK, MLOG_UNDO_INSERT, MLOG_UNDO_ERASE_END,
   MLOG_UNDO_INIT, MLOG_UNDO_HDR_DISCARD, MLOG_UNDO_HDR_REUSE, MLOG_UNDO_HDR_CREATE, MLOG_IBUF_BITMAP_INIT,
   MLOG_INIT_FILE_PAGE, MLOG_INIT_FILE_PAGE2, MLOG_WRITE_STRING, MLOG_MULTI_REC_END, MLOG_DUMMY_RECORD,
   MLOG_FILE_RENAME, MLOG_FILE_CREATE, MLOG_FILE_DELETE, MLOG_FILE_CREATE2, MLOG_FILE_RENAME2, MLOG_FILE_NAME,
   MLOG_REC_MIN_MARK, MLOG_COMP_REC_MIN_MARK, MLOG_PAGE_CREATE, MLOG_COMP_PAGE_CREATE, MLOG_REC_INSERT,
   MLOG_COMP_REC_INSERT, MLOG_REC_CLUST_DELETE_MARK, MLOG_COMP_REC_CLUST_DELETE_MARK, MLOG_COMP_REC_SEC_DELETE_MARK,
   MLOG_REC_UPDATE_IN_PLACE, MLOG_COMP_REC_UPDATE_IN_PLACE, MLOG_REC_DELETE, MLOG_COMP_REC_DELETE,
   MLOG_LIST_END_DELETE, MLOG_COMP_LIST_END_DELETE, MLOG_LIST_START_DELETE, MLOG_COMP_LIST_START_DELETE,
   MLOG_LIST_END_COPY_CREATED, MLOG_COMP_LIST_END_COPY_CREATED, MLOG_PAGE_REORGANIZE, MLOG_COMP_PAGE_REORGANIZE,
   MLOG_ZIP_PAGE_REORGANIZE, MLOG_ZIP_WRITE_NODE_PTR, MLOG_ZIP_WRITE_BLOB_PTR, MLOG_ZIP_WRITE_HEADER,
   MLOG_ZIP_PAGE_COMPRESS, MLOG_ZIP_PAGE_COMPRESS_NO_DATA, MLOG_CHECKPOINT, MLOG_COMP_PAGE_CREATE_RTREE,
   MLOG_PAGE_CREATE_RTREE, MLOG_TRUNCATE, MLOG_INDEX_LOAD].contains logType

/-- What the main loop does after a record: go on, or return. -/
inductive Ctl where
  | next
  | ret (err : Option Bytes)
deriving Repr, DecidableEq

/-- run a handler and ignore its error (the `break` in the switch only leaves the switch) -/
def ign (m : RM (Option Bytes)) : RM Ctl := do
  let _ ← m
  return .next

def unit (m : RM Unit) : RM Ctl := do
  m
  return .next

/-- parse.go:302-450: the switch over the record type -/
def dispatch (cfg : RCfg) (s : Stream) (logType : Nat) : RM Ctl :=
  let d := s.data
  if logType = MLOG_1BYTE ∨ logType = MLOG_2BYTES ∨ logType = MLOG_4BYTES ∨ logType = MLOG_8BYTES then
    ign (mlogNBytes d logType)
  else if logType = MLOG_REC_SEC_DELETE_MARK then unit (mlogRecSecDeleteMark d)
  else if logType = MLOG_UNDO_INSERT then ign (mlogUndoInsert cfg s)
  else if logType = MLOG_UNDO_ERASE_END then pure .next
  else if logType = MLOG_UNDO_INIT then ign (mlogUndoInit d)
  else if logType = MLOG_UNDO_HDR_DISCARD then pure .next
  else if logType = MLOG_UNDO_HDR_REUSE then unit (mlogUndoHdrReuse d)
  else if logType = MLOG_UNDO_HDR_CREATE then unit (mlogUndoHdrCreate d)
  else if logType = MLOG_IBUF_BITMAP_INIT then pure .next
  else if logType = MLOG_INIT_FILE_PAGE ∨ logType = MLOG_INIT_FILE_PAGE2 then pure .next
  else if logType = MLOG_WRITE_STRING then unit (mlogWriteString d)
  else if logType = MLOG_MULTI_REC_END then pure .next
  else if logType = MLOG_DUMMY_RECORD then pure .next
  else if logType = MLOG_FILE_RENAME ∨ logType = MLOG_FILE_CREATE ∨ logType = MLOG_FILE_DELETE ∨
      logType = MLOG_FILE_CREATE2 ∨ logType = MLOG_FILE_RENAME2 ∨ logType = MLOG_FILE_NAME then
    unit (mlogFileOp d logType)
  else if logType = MLOG_REC_MIN_MARK ∨ logType = MLOG_COMP_REC_MIN_MARK then unit (addPos 2)
  else if logType = MLOG_PAGE_CREATE ∨ logType = MLOG_COMP_PAGE_CREATE then pure .next
  else if logType = MLOG_REC_INSERT ∨ logType = MLOG_COMP_REC_INSERT then do
    match ← mlogRecInsert d logType with
    | some e => return .ret (some e)
    | none => return .next
  else if logType = MLOG_REC_CLUST_DELETE_MARK ∨ logType = MLOG_COMP_REC_CLUST_DELETE_MARK then
    ign (mlogRecClustDeleteMark d logType)
  else if logType = MLOG_COMP_REC_SEC_DELETE_MARK then ign (mlogCompRecSecDeleteMark d)
  else if logType = MLOG_REC_UPDATE_IN_PLACE ∨ logType = MLOG_COMP_REC_UPDATE_IN_PLACE then
    ign (mlogRecUpdateInPlace d logType)
  else if logType = MLOG_REC_DELETE ∨ logType = MLOG_COMP_REC_DELETE then ign (mlogRecDelete d logType)
  else if logType = MLOG_LIST_END_DELETE ∨ logType = MLOG_COMP_LIST_END_DELETE ∨ logType = MLOG_LIST_START_DELETE ∨
      logType = MLOG_COMP_LIST_START_DELETE then ign (mlogListDelete d logType)
  else if logType = MLOG_LIST_END_COPY_CREATED ∨ logType = MLOG_COMP_LIST_END_COPY_CREATED then
    ign (mlogListEndCopyCreated d logType)
  else if logType = MLOG_PAGE_REORGANIZE ∨ logType = MLOG_COMP_PAGE_REORGANIZE ∨
      logType = MLOG_ZIP_PAGE_REORGANIZE then ign (mlogPageReorganize d logType)
  else if logType = MLOG_ZIP_WRITE_NODE_PTR then unit (mlogZipWriteNodePtr d)
  else if logType = MLOG_ZIP_WRITE_BLOB_PTR then unit (addPos 24)
  else if logType = MLOG_ZIP_WRITE_HEADER then unit (mlogZipWriteHeader d)
  else if logType = MLOG_ZIP_PAGE_COMPRESS then unit (mlogZipPageCompress d)
  else if logType = MLOG_ZIP_PAGE_COMPRESS_NO_DATA then ign (mlogZipPageCompressNoData d)
  else if logType = MLOG_CHECKPOINT then unit (addPos 8)
  else if logType = MLOG_COMP_PAGE_CREATE_RTREE ∨ logType = MLOG_PAGE_CREATE_RTREE then pure .next
  else if logType = MLOG_TRUNCATE then unit (addPos 8)
  else if logType = MLOG_INDEX_LOAD then unit (addPos 8)
  else pure .next

/-- parse.go:255-450: one iteration of the main loop (at least five bytes remain).
`getTableBySpaceID` (parse.go:292) is only used for logging and not modelled. -/
def redoStep (cfg : RCfg) (s : Stream) : RM Ctl := do
  let raw ← here read1 s.data
  addPos 1
  let startPos ← getPos
  if raw = MLOG_MULTI_REC_END then return .next
  else
    let logType := andNot64 raw MLOG_SINGLE_REC_FLAG
    if logType ≠ MLOG_CHECKPOINT then
      let sp ← here matchParseCompressed s.data
      addPos sp.num
      match sp.err with
      | some e => return .ret (some e)
      | none =>
        let pg ← here matchParseCompressed s.data
        addPos pg.num
        match pg.err with
        | some e => return .ret (some e)
        | none =>
          if !validateLogHeader logType then
            setPos startPos
            return .next
          else dispatch cfg s logType
    else dispatch cfg s logType

/-- parse.go:247-451: the main loop.  `Props/Redo*.lean` prove that the fuel used by `parseRedoBlockData` is never
exhausted. -/
def redoLoop (cfg : RCfg) (s : Stream) : Nat → RM (Option Bytes)
  | 0 => GoM.hang
  | fuel + 1 => do
    -- int64(len(data)) - int64(pos) < 5
    if s.data.length < (← getPos) + 5 then return none
    else
      match ← redoStep cfg s with
      | .ret e => return e
      | .next => redoLoop cfg s fuel

/-- parse.go:245-453 `parseRedoBlockData`, starting with the output printed so far -/
def parseRedoBlockData (cfg : RCfg) (s : Stream) : GoM Out (Option Bytes) := fun out =>
  match redoLoop cfg s (s.data.length + 1) ⟨0, out⟩ with
  | .ok e st => .ok e st.out
  | .panic st => .panic st.out
  | .hang st => .hang st.out

/-! ## Reading the log files -/

/-- parse.go:17-32 of redo/const.go -/
def OS_FILE_LOG_BLOCK_SIZE : Nat := 512
def LOG_BLOCK_HDR_SIZE : Nat := 12
def LOG_BLOCK_TRL_SIZE : Nat := 4

/-- outcome of reading a log file: an error, a panic, or a value -/
inductive RF (α : Type) where
  | ok (a : α)
  | err (e : Bytes)
  | panic
deriving Repr, DecidableEq

def errEOF : Bytes := b! "EOF"

/-- parse.go:151-176 `readRedoLogFileHeader`: what remains of the file.  The values read are only logged; the slice
expression for the creator string panics when no NUL byte follows (`IndexByte` returns -1). -/
def readRedoLogFileHeader (file : Bytes) : RF Bytes :=
  match readNextBytes file OS_FILE_LOG_BLOCK_SIZE with
  | none => .err errEOF
  | some (data, rest) =>
    match (do
      let _ ← read4 data 0
      let _ ← read4 data 4
      let _ ← read8 data 8
      let tail ← sliceFrom data 16
      indexByte tail 0) with
    | some _ => .ok rest
    | none => .panic

/-- parse.go:186-205 `readRedoLogFileCheckpoint` with utils.go:474-487 `ReadIntoStruct`: what remains of the file.
The checkpoint structures (redo/structure.go:18-56) are exactly 512 bytes, so `binary.Read` succeeds; their contents
are only logged.  The result of reading the empty block is ignored (parse.go:195). -/
def readRedoLogFileCheckpoint (file : Bytes) : RF Bytes :=
  match readNextBytes file OS_FILE_LOG_BLOCK_SIZE with
  | none => .err errEOF
  | some (_, rest) =>
    let rest := match readNextBytes rest OS_FILE_LOG_BLOCK_SIZE with
      | some (_, r) => r
      | none => rest
    match readNextBytes rest OS_FILE_LOG_BLOCK_SIZE with
    | none => .err errEOF
    | some (_, rest) => .ok rest

/-- parse.go:213-239 `readRedoBlockHeader`: the data length (a `uint16`), the only field that is used -/
def readRedoBlockHeader (data : Bytes) : Option Nat := do
  let _ ← read4 data 0
  let dataLen ← read2 data 4
  let _ ← read2 data 6
  let _ ← read4 data 8
  return dataLen % 65536

/-- parse.go:90-111: the loop over the blocks of a file, appending to `acc`; `none` is a panic -/
def blocksLoop : Nat → Bytes → Bytes → Option Bytes
  | 0, _, acc => some acc
  | fuel + 1, rest, acc =>
    match readNextBytes rest OS_FILE_LOG_BLOCK_SIZE with
    | none => some acc
    | some (block, rest) => do
      let dataLen ← readRedoBlockHeader block
      if dataLen = 0 then some acc
      else
        let dataLen := if dataLen ≥ OS_FILE_LOG_BLOCK_SIZE then dataLen - LOG_BLOCK_TRL_SIZE else dataLen
        -- block[LOG_BLOCK_HDR_SIZE:dataLen]; the capacity of block is 512
        if LOG_BLOCK_HDR_SIZE ≤ dataLen ∧ dataLen ≤ block.length then
          blocksLoop fuel rest (acc ++ (block.take dataLen).drop LOG_BLOCK_HDR_SIZE)
        else none

/-- parse.go:73-112: one file -/
def readRedoFile (file : File) (acc : Bytes) : RF Bytes :=
  match file with
  | .error e => .err e
  | .ok content =>
    match readRedoLogFileHeader content with
    | .err e => .err e
    | .panic => .panic
    | .ok rest =>
      match readRedoLogFileCheckpoint rest with
      | .err e => .err e
      | .panic => .panic
      | .ok rest =>
        match blocksLoop rest.length rest acc with
        | some acc => .ok acc
        | none => .panic

/-- parse.go:72-113: all files -/
def readRedoFiles : List File → Bytes → RF Bytes
  | [], acc => .ok acc
  | f :: fs, acc =>
    match readRedoFile f acc with
    | .ok acc => readRedoFiles fs acc
    | .err e => .err e
    | .panic => .panic

/-- parse.go:70-121 `ParseRedoLogs`; `spare` is the unused capacity of the slice `data` -/
def parseRedoLogs (cfg : RCfg) (files : List File) (spare : Nat) : GoM Out (Option Bytes) :=
  match readRedoFiles files [] with
  | .err e => pure (some e)
  | .panic => GoM.panic
  | .ok data => parseRedoBlockData cfg ⟨data, spare⟩

end Verif
