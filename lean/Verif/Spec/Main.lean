import Verif.Go
/-!
# Command lines
-/

namespace Verif.Spec
open Verif

/-- an option of a command line: `--name=value` or `--name value` -/
structure Opt where
  name : Bytes
  value : Bytes
  /-- written as one argument -/
  joined : Bool := true
deriving Repr, DecidableEq

def Opt.args (o : Opt) : List Bytes :=
  if o.joined then [b! "--" ++ o.name ++ b! "=" ++ o.value] else [b! "--" ++ o.name, o.value]

/-- a command line with options before `recovery`, before the name of the operation, and after it -/
structure CmdLine where
  redo : Bool
  pre : List Opt := []
  mid : List Opt := []
  post : List Opt := []
deriving Repr, DecidableEq

def CmdLine.operation (l : CmdLine) : Bytes := if l.redo then b! "FromRedoFile" else b! "FromDataFile"

def CmdLine.argv (l : CmdLine) : List Bytes :=
  l.pre.flatMap Opt.args ++ b! "recovery" :: (l.mid.flatMap Opt.args ++ l.operation :: l.post.flatMap Opt.args)

def CmdLine.opts (l : CmdLine) : List Opt := l.pre ++ l.mid ++ l.post

/-- the value of an option: of those given the last, otherwise empty -/
def CmdLine.value (l : CmdLine) (name : Bytes) : Bytes :=
  l.opts.foldl (fun v o => if o.name = name then o.value else v) []

/-- the options of the help text (README.md:51-110) -/
def CmdLine.known (l : CmdLine) : List Bytes :=
  [b! "SysDataFile", if l.redo then b! "RedoFile" else b! "TableDataFile", b! "DBName", b! "TableName",
   b! "OpType", b! "LogPath", b! "LogLevel"]

/-- those that must be given -/
def CmdLine.required (l : CmdLine) : List Bytes :=
  if l.redo then [b! "SysDataFile", b! "RedoFile"] else [b! "SysDataFile", b! "TableDataFile", b! "DBName", b! "TableName"]

/-- only options of the operation, and all that it requires -/
structure CmdLine.Valid (l : CmdLine) : Prop where
  known : ∀ o ∈ l.opts, o.name ∈ l.known
  required : ∀ n ∈ l.required, ∃ o ∈ l.opts, o.name = n

/-- no value that stands as an argument of its own before a command has the name of that command -/
structure CmdLine.Distinct (l : CmdLine) : Prop where
  recovery : ∀ o ∈ l.pre, o.joined = false → o.value ≠ b! "recovery"
  operation : ∀ o ∈ l.pre ++ l.mid, o.joined = false → o.value ≠ l.operation

end Verif.Spec
