import Verif.Model.Redo
/-!
# Model of `recovery/logs/logs.go` and `cmd/db-recovery/command.go`
-/

namespace Verif

/-! ## Log levels -/

/-- logs.go:25-32 -/
def LevelFatal : Nat := 0
def LevelError : Nat := 1
def LevelWarn : Nat := 2
def LevelInfo : Nat := 3
def LevelDebug : Nat := 4
def LevelTrace : Nat := 5

/-- logs.go:34-41 `LevelMap` -/
def levelMap (s : Bytes) : Option Nat :=
  if s = b! "trace" then some LevelTrace
  else if s = b! "debug" then some LevelDebug
  else if s = b! "info" then some LevelInfo
  else if s = b! "warn" then some LevelWarn
  else if s = b! "error" then some LevelError
  else if s = b! "fatal" then some LevelFatal
  else none

/-- logs.go:43-54 `InitLogs`: the value given to glog's `-v` flag (the `flag.Set` calls are assumed to succeed) -/
def initLogs (logLevel : Bytes) : Nat := (levelMap (toLowerAscii logLevel)).getD LevelInfo

/-- logs.go:60-124: a message of level `lvl` is written iff glog's verbosity is at least `lvl` -/
def logWritten (verbosity lvl : Nat) : Bool := lvl ≤ verbosity

/-! ## Commands -/

/-- The files named on the command line -/
structure FromData where
  sysFile : File
  tableFile : File
  db : Bytes
  table : Bytes
  opType : Bytes

/-- command.go:96-127 `FromDataFile`; `InitLogs` is assumed to succeed -/
def fromDataFile (env : Env) (a : FromData) : GoM Out Unit := fun out =>
  match parseDictPage env a.sysFile { out := out } with
  | .panic s => .panic s.out
  | .hang s => .hang s.out
  | .ok (some e) s => .ok () (s.out ++ [e])
  | .ok none s =>
    let isRecovery := a.opType == b! "RecoveryData"
    match parseDataPage env a.tableFile a.db a.table isRecovery ⟨s.tables, s.out⟩ with
    | .panic s => .panic s.out
    | .hang s => .hang s.out
    | .ok (some e) s => .ok () (s.out ++ [e])
    | .ok none s => .ok () s.out

/-- `strings.Split(s, ",")` -/
def splitComma (s : Bytes) : List Bytes :=
  match s with
  | [] => [[]]
  | c :: cs =>
    if c = 44 then [] :: splitComma cs
    else match splitComma cs with
      | h :: t => (c :: h) :: t
      | [] => [[c]]

structure FromRedo where
  sysFile : File
  /-- the value of the flag `RedoFile`: comma-separated file names -/
  redoFile : Bytes
  db : Bytes
  table : Bytes

/-- command.go:149-175 `FromRedoFile`.  `fs` is the file system.  A dictionary error is only logged. -/
def fromRedoFile (env : Env) (fs : Bytes → File) (a : FromRedo) (spare : Nat) : GoM Out Unit := fun out =>
  match parseDictPage env a.sysFile { out := out } with
  | .panic s => .panic s.out
  | .hang s => .hang s.out
  | .ok (some _) s => .ok () s.out
  | .ok none s =>
    match parseRedoLogs ⟨env, s.tables, a.table, a.db⟩ ((splitComma a.redoFile).map fs) spare s.out with
    | .panic o => .panic o
    | .hang o => .hang o
    | .ok (some e) o => .ok () (o ++ [b! "parse redo failed, error:  " ++ e])
    | .ok none o => .ok () o

end Verif
