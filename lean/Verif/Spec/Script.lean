import Verif.Spec.Update
/-!
# Specification: standard output as an SQL script
-/

namespace Verif.Spec

/-- The bytes on standard output when these lines have been printed. -/
def stdout (lines : List Bytes) : Bytes := lines.flatMap (· ++ [10])

/-- The statements of a script, each with its semicolon; `acc` are the tokens of the first one that have been read.  `none`: the last statement
has no semicolon. -/
def statements (acc : List Tok) : List Tok → Option (List (List Tok))
  | [] => if acc = [] then some [] else none
  | t :: ts => if t = .sym 59 then (statements [] ts).map ((acc ++ [.sym 59]) :: ·) else statements (acc ++ [t]) ts

/-- A script of REPLACE statements. -/
def readReplaces (s : Bytes) : Option (List Replace) := ((lex s).bind (statements [])).bind (·.mapM parseReplace)

/-- A script of UPDATE statements. -/
def readUpdates (s : Bytes) : Option (List Update) := ((lex s).bind (statements [])).bind (·.mapM parseUpdate)

example : readReplaces (b! "replace into `d`.`t` values ('a;\n');\nreplace into `d`.`t`\n values (NULL);\n") =
    some [⟨b! "d", b! "t", [.bytes (b! "a;\n")]⟩, ⟨b! "d", b! "t", [.null]⟩] := by decide
example : readReplaces (b! "replace into `d`.`t` values ('a')\nreplace into `d`.`t` values (NULL);\n") = none := by decide
example : readReplaces (b! "replace into `d`.`t` values ('a')\n") = none := by decide
example : readReplaces [] = some [] := rfl

end Verif.Spec
