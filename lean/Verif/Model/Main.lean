import Verif.Model.Cli
/-!
# Model of `main` (cmd/db-recovery/main.go, command.go): from the arguments to standard output and the exit status

The libraries are not in the repository.  The definitions follow cobra 1.1.1 (go.mod), the pflag it uses, and the package `flag` of
Go 1.13 (go.mod); they are part of the trusted base.  Help texts are not modelled: lines that ask for help, that name no operation,
or that use one-letter options give `other`.
-/

namespace Verif

/-- what cobra makes of the arguments -/
inductive Cobra where
  /-- an error: cobra writes to standard error only, and main.go:26 panics with it -/
  | error
  /-- not modelled: help, version -/
  | other
  /-- the function of the operation is called; `vars` are the options in the order given -/
  | body (redo : Bool) (vars : List (Bytes × Bytes))
deriving Repr, DecidableEq

/-- does cobra take the argument for an option that is followed by its value? -/
def takesNext (s : Bytes) : Bool :=
  ((b! "--").isPrefixOf s && !s.contains 61) || ((b! "-").isPrefixOf s && !s.contains 61 && s.length == 2)

/-- cobra `stripFlags`: the arguments that are neither options nor values of options.  No option known to it goes without a value
(the option `help` is only added later). -/
def stripFlags : List Bytes → List Bytes
  | [] => []
  | s :: args =>
    if s = b! "--" then []
    else if takesNext s then
      match args with
      | [] => []
      | [_] => []
      | _ :: rest => stripFlags rest
    else if !s.isEmpty && !(b! "-").isPrefixOf s then s :: stripFlags args
    else stripFlags args

/-- pflag `parseArgs` for options that all take a value -/
def pflags (redo : Bool) (names : List Bytes) : List Bytes → List (Bytes × Bytes) → Cobra
  | [], vars => .body redo vars
  | s :: args, vars =>
    if s.length < 2 || !(b! "-").isPrefixOf s then pflags redo names args vars
    else if !(b! "--").isPrefixOf s then .other
    else if s = b! "--" then .body redo vars
    else
      let name := s.drop 2
      if (b! "-").isPrefixOf name || (b! "=").isPrefixOf name then .error
      else
        let n := name.takeWhile (· ≠ 61)
        if n = b! "help" then .other
        else if n ∉ names then .error
        else if name.contains 61 then pflags redo names args (vars ++ [(n, name.drop (n.length + 1))])
        else
          match args with
          | [] => .error
          | v :: rest => pflags redo names rest (vars ++ [(n, v)])

/-- command.go:57-59: the options of the root command -/
def rootOptions : List Bytes := [b! "OpType", b! "LogPath", b! "LogLevel"]

/-- command.go:75-94 -/
def dataOptions : List Bytes := [b! "SysDataFile", b! "TableDataFile", b! "DBName", b! "TableName"]

/-- command.go:129-147 -/
def redoOptions : List Bytes := [b! "SysDataFile", b! "RedoFile", b! "DBName", b! "TableName"]

/-- command.go:82-91 and 136-140: `MarkFlagRequired` -/
def requiredOptions (redo : Bool) : List Bytes := if redo then [b! "SysDataFile", b! "RedoFile"] else dataOptions

/-- cobra `Command.execute`: the options, then the required ones -/
def cobraExecute (redo : Bool) (args : List Bytes) : Cobra :=
  match pflags redo ((if redo then redoOptions else dataOptions) ++ rootOptions) args [] with
  | .body redo vars => if (requiredOptions redo).all fun n => vars.any (·.1 == n) then .body redo vars else .error
  | c => c

/-- main.go:22-24 `rootCmd.Execute` with the commands of command.go:50-79: cobra `Find`, which removes the first argument that is
equal to the name of the command (`argsMinusFirstX`) -/
def cobra (argv : List Bytes) : Cobra :=
  match stripFlags argv with
  | [] => .other
  | w :: _ =>
    if w = b! "recovery" then
      let argv := argv.erase w
      match stripFlags argv with
      | [] => .other
      | x :: _ =>
        if x = b! "FromDataFile" then cobraExecute false (argv.erase x)
        else if x = b! "FromRedoFile" then cobraExecute true (argv.erase x)
        else .other
    else if w ∈ [b! "version", b! "help", b! "__complete", b! "__completeNoDesc"] then .other
    else .error

/-- the options that glog defines for the package `flag`; `true`: a switch -/
def glogFlags (name : Bytes) : Option Bool :=
  if name ∈ [b! "logtostderr", b! "alsologtostderr"] then some true
  else if name ∈ [b! "v", b! "stderrthreshold", b! "vmodule", b! "log_backtrace_at", b! "log_dir"] then some false
  else none

/-- `flag.Parse()` of the package `flag`, on all arguments (command.go:99 and 152): `none` when it returns, otherwise the status it
ends the program with.  `accepts` says which values glog's options take. -/
def flagParse (accepts : Bytes → Bytes → Bool) : List Bytes → Option Nat
  | [] => none
  | s :: args =>
    if s.length < 2 || !(b! "-").isPrefixOf s then none
    else if s = b! "--" then none
    else
      let name := if (b! "--").isPrefixOf s then s.drop 2 else s.drop 1
      if name = [] || (b! "-").isPrefixOf name || (b! "=").isPrefixOf name then some 2
      else
        let n := name.takeWhile (· ≠ 61)
        match glogFlags n with
        | none => some 2
        | some sw =>
          if name.contains 61 then
            if accepts n (name.drop (n.length + 1)) then flagParse accepts args else some 2
          else if sw then flagParse accepts args
          else
            match args with
            | [] => some 2
            | v :: rest => if accepts n v then flagParse accepts rest else some 2

/-- how a run of the program ends, and what it wrote to standard output until then -/
inductive Ended where
  | exit (status : Nat) (out : Out)
  | hang (out : Out)
  /-- not modelled -/
  | other
deriving Repr, DecidableEq

/-- the value of an option: the last one given, otherwise the default (command.go:35-48, 57-59, 81-146) -/
def option (vars : List (Bytes × Bytes)) (name dflt : Bytes) : Bytes :=
  match (vars.filter (·.1 == name)).getLast? with
  | some v => v.2
  | none => dflt

/-- a panic that reaches `main` ends the program with status 2, a return of the command with `os.Exit(0)` (main.go:25-28) -/
def ended : R Out Unit → Ended
  | .ok _ out => .exit 0 out
  | .panic out => .exit 2 out
  | .hang out => .hang out

/-- main.go:20-29 `main` -/
def runMain (env : Env) (fs : Bytes → File) (spare : Nat) (accepts : Bytes → Bytes → Bool) (argv : List Bytes) : Ended :=
  match cobra argv with
  | .error => .exit 2 []
  | .other => .other
  | .body redo vars =>
    match flagParse accepts argv with
    | some n => .exit n []
    | none =>
      let v := fun name => option vars name []
      if redo then
        ended (fromRedoFile env fs ⟨fs (v (b! "SysDataFile")), v (b! "RedoFile"), v (b! "DBName"), v (b! "TableName")⟩ spare [])
      else
        ended (fromDataFile env ⟨fs (v (b! "SysDataFile")), fs (v (b! "TableDataFile")), v (b! "DBName"), v (b! "TableName"),
          v (b! "OpType")⟩ [])

end Verif
