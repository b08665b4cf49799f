import Verif.Go
/-!
# Specification: lists of names on the command line
-/

namespace Verif.Spec

/-- The names with a comma between neighbours. -/
def commaList : List Bytes → Bytes
  | [] => []
  | [n] => n
  | n :: ns => n ++ [44] ++ commaList ns

end Verif.Spec
