import Verif.Go
/-!
# Specification: names in SYS_TABLES

MySQL (strings/ctype-utf8.c, `my_wc_mb_filename`) records a table under `db/table`, where both names are encoded as file names: letters,
digits and `_` stand for themselves, any other ASCII character is `@` and its code in four hexadecimal digits.  (Other characters, which have
codes of their own, are left out.)
-/

namespace Verif.Spec

/-- letters, digits and `_` -/
def plain (c : UInt8) : Bool := (48 ≤ c && c ≤ 57) || (65 ≤ c && c ≤ 90) || (97 ≤ c && c ≤ 122) || c == 95

def hexOf (n : UInt8) : UInt8 := if n < 10 then 48 + n else 87 + n

def encodeName (n : Bytes) : Bytes := n.flatMap fun c => if plain c then [c] else [64, 48, 48, hexOf (c / 16), hexOf (c % 16)]

/-- a name of ASCII characters -/
def Ascii (n : Bytes) : Prop := n ≠ [] ∧ ∀ c ∈ n, 0 < c ∧ c < 128

instance (n : Bytes) : Decidable (Ascii n) := inferInstanceAs (Decidable (_ ∧ _))

example : encodeName (b! "my-table") = b! "my@002dtable" := by decide
example : encodeName (b! "Order_2") = b! "Order_2" := by decide

/-- the bytes of names in SYS_TABLES: `#` separates the names of partitions -/
def storedChar (c : UInt8) : Bool := plain c || c == 64 || c == 35 || c == 47

end Verif.Spec
