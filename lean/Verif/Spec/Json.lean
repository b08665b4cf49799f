import Verif.Spec.Sql
/-!
# JSON columns of MySQL 5.7

A server takes a string for a JSON column if its character set is not binary and it is the text of a JSON value; what is stored is a binary form of the
value.
-/

namespace Verif.Spec
open Verif

def isJsonSpace (c : UInt8) : Bool := c == 32 || c == 9 || c == 10 || c == 13
def isJsonDigit (c : UInt8) : Bool := 48 ≤ c && c ≤ 57

/-- the numbers of JSON (RFC 8259) -/
inductive JsonNumber : Bytes → Prop where
  | mk (minus int frac exp : Bytes) : (minus = [] ∨ minus = b! "-") →
      (int = b! "0" ∨ ∃ d ds, int = d :: ds ∧ isJsonDigit d = true ∧ d ≠ 48 ∧ ∀ x ∈ ds, isJsonDigit x = true) →
      (frac = [] ∨ ∃ ds, frac = b! "." ++ ds ∧ ds ≠ [] ∧ ∀ x ∈ ds, isJsonDigit x = true) →
      (exp = [] ∨ ∃ e sign ds, exp = e :: (sign ++ ds) ∧ (e = 101 ∨ e = 69) ∧ (sign = [] ∨ sign = b! "+" ∨ sign = b! "-") ∧ ds ≠ [] ∧
        ∀ x ∈ ds, isJsonDigit x = true) →
      JsonNumber (minus ++ int ++ frac ++ exp)

/-- the strings of JSON, by their bytes: no control characters, and quotes and backslashes only in escapes -/
inductive JsonChars : Bytes → Prop where
  | nil : JsonChars []
  | plain (c : UInt8) (s : Bytes) : 32 ≤ c → c ≠ 34 → c ≠ 92 → JsonChars s → JsonChars (c :: s)
  | escape (c : UInt8) (s : Bytes) : c ∈ b! "\"\\/bfnrt" → JsonChars s → JsonChars (92 :: c :: s)
  | unicode (h s : Bytes) : h.length = 4 → (∀ x ∈ h, (hexVal x).isSome = true) → JsonChars s → JsonChars (92 :: 117 :: (h ++ s))

/-- text separated by commas -/
def commaJoin : List Bytes → Bytes
  | [] => []
  | [x] => x
  | x :: xs => x ++ b! "," ++ commaJoin xs

/-- the text of a value of JSON, with white space around it -/
inductive JsonText : Bytes → Prop where
  | literal (s : Bytes) : s ∈ [b! "null", b! "true", b! "false"] → JsonText s
  | number (s : Bytes) : JsonNumber s → JsonText s
  | string (s : Bytes) : JsonChars s → JsonText (b! "\"" ++ s ++ b! "\"")
  | array (l : List Bytes) : (∀ x ∈ l, JsonText x) → JsonText (b! "[" ++ commaJoin l ++ b! "]")
  | empty (s : Bytes) : (∀ x ∈ s, isJsonSpace x = true) → JsonText (b! "[" ++ s ++ b! "]")
  | object (l : List (Bytes × Bytes × Bytes × Bytes)) : (∀ m ∈ l, (∀ x ∈ m.1 ++ m.2.2.1, isJsonSpace x = true) ∧ JsonChars m.2.1) →
      (∀ m ∈ l, JsonText m.2.2.2) →
      JsonText (b! "{" ++ commaJoin (l.map fun m => m.1 ++ b! "\"" ++ m.2.1 ++ b! "\"" ++ m.2.2.1 ++ b! ":" ++ m.2.2.2) ++ b! "}")
  | none (s : Bytes) : (∀ x ∈ s, isJsonSpace x = true) → JsonText (b! "{" ++ s ++ b! "}")
  | before (c : UInt8) (s : Bytes) : isJsonSpace c = true → JsonText s → JsonText (c :: s)
  | behind (c : UInt8) (s : Bytes) : isJsonSpace c = true → JsonText s → JsonText (s ++ [c])

/-- What the binary form of a value begins with (sql/json_binary.h): an object (0, 1), an array (2, 3), a literal (4), an integer (5 to 10), a double (11), a
string (12), or a value of another type of SQL (15). -/
def Jsonb (s : Bytes) : Prop := ∃ t body, s = t :: body ∧ t ∈ ([0, 1, 2, 3, 4, 5, 6, 7, 8, 9, 10, 11, 12, 15] : List UInt8)

/-- What a server makes of an expression for a JSON column: a text.  The result of `unhex` has the character set binary, which is refused. -/
def jsonArgument : List Tok → Option Bytes
  | [.str s] => some s
  | _ => none

/-- `[1, "a"]` -/
example : JsonText (b! "[1, \"a\"]") :=
  .array [b! "1", b! " \"a\""] (by
    intro x hx
    simp only [List.mem_cons, List.not_mem_nil, or_false] at hx
    rcases hx with rfl | rfl
    · exact .number _ (.mk [] (b! "1") [] [] (.inl rfl) (.inr ⟨49, [], rfl, by decide, by decide, fun _ h => (nomatch h)⟩) (.inl rfl) (.inl rfl))
    · exact .before 32 _ (by decide) (.string (b! "a") (.plain 97 [] (by decide) (by decide) (by decide) .nil)))

/-- the array `[1, "a"]` in binary form -/
example : Jsonb [2, 2, 0, 13, 0, 5, 1, 0, 12, 10, 0, 1, 97] := ⟨2, _, rfl, by decide⟩

end Verif.Spec
