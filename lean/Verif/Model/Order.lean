import Verif.Model.Cli
/-!
# The commands with the iteration order of the maps made explicit

Go iterates over a map in an order that is chosen anew for every `range`.  In the other files of the model the order is that of the
association list.  Here an `Order` rearranges the map before each `range` over it; with the identity these definitions are the ones
of the other files (`Props/Order.lean`).
-/

namespace Verif

/-- the map, and the maps of indexes in it, as iterated by the `n`-th `range` of a run -/
abbrev Order := Nat → TableMap → TableMap

/-- parse.go:527-583 `getAllFields`; the `range`s are those of lines 569 and 571 -/
def getAllFieldsIn (o : Order) (env : Env) : GoM DState (Option Bytes) := do
  let s ← GoM.get
  match s.dict.get? SysFieldsIdx with
  | none => return some (b! "sys field's page have not found")
  | some dts => do
    let rows ← withCols makeSysFieldsColumns (parseDictPages env s.tables dts)
    let m ← GoM.lift (foldRows addFieldRow [] rows)
    GoM.modify (fun s => s.setTables (attachFields m (o 0 s.tables)))
    return none

/-- parse.go:45-138 `ParseDictPage`; the `range`s are also those of lines 303, 316, 317, 345 and 346 -/
def parseDictPageIn (o : Order) (env : Env) (file : File) : GoM DState (Option Bytes) :=
  match file with
  | .error e => pure (some e)
  | .ok content => do
    let pages ← GoM.lift (parseFile content)
    let sp ← GoM.lift (findSysHeader pages)
    let s ← GoM.get
    let d ← GoM.lift (collectPages sp pages s.dict)
    GoM.modify (fun s => { s with dict := d })
    andThen (getAllTables env) <| andThen (getAllColumns env) <| andThen (getAllIndexes env) <|
      andThen (getAllFieldsIn o env) do
        let s ← GoM.get
        let t ← GoM.lift (movePrimaryKeyFirst (o 2 (sortColumns (o 1 s.tables))))
        let t ← GoM.lift (addInternalColumns (o 3 t))
        GoM.modify (·.setTables t)
        return none

/-- parse.go:144-198 `ParseDataPage`; the `range` is that of line 1049 -/
def parseDataPageIn (o : Order) (env : Env) (file : File) (db name : Bytes) (isRecovery : Bool) : GoM IState (Option Bytes) :=
  match file with
  | .error e => pure (some e)
  | .ok content => do
    let pages ← GoM.lift (parseFile content)
    let s ← GoM.get
    let fields := getTableColumnsFromDict (o 4 s.tables) db name
    GoM.zoom (fun s => (⟨fields, s.out⟩ : PState))
      (fun t s => { s with tables := writeBack (o 4 s.tables) db name t.cols, out := t.out })
      (dataPagesLoop env s.tables db name isRecovery pages)
    return none

/-- command.go:96-127 `FromDataFile` -/
def fromDataFileIn (o : Order) (env : Env) (a : FromData) : GoM Out Unit := fun out =>
  match parseDictPageIn o env a.sysFile { out := out } with
  | .panic s => .panic s.out
  | .hang s => .hang s.out
  | .ok (some e) s => .ok () (s.out ++ [e])
  | .ok none s =>
    let isRecovery := a.opType == b! "RecoveryData"
    match parseDataPageIn o env a.tableFile a.db a.table isRecovery ⟨s.tables, s.out⟩ with
    | .panic s => .panic s.out
    | .hang s => .hang s.out
    | .ok (some e) s => .ok () (s.out ++ [e])
    | .ok none s => .ok () s.out

/-- command.go:149-175 `FromRedoFile`.  The `range` over the indexes of a table (mlog.go:277) is made for every undo record; here it
has the same order for all of them. -/
def fromRedoFileIn (o : Order) (env : Env) (fs : Bytes → File) (a : FromRedo) (spare : Nat) : GoM Out Unit := fun out =>
  match parseDictPageIn o env a.sysFile { out := out } with
  | .panic s => .panic s.out
  | .hang s => .hang s.out
  | .ok (some _) s => .ok () s.out
  | .ok none s =>
    match parseRedoLogs ⟨env, o 4 s.tables, a.table, a.db⟩ ((splitComma a.redoFile).map fs) spare s.out with
    | .panic o => .panic o
    | .hang o => .hang o
    | .ok (some e) o => .ok () (o ++ [b! "parse redo failed, error:  " ++ e])
    | .ok none o => .ok () o

end Verif
