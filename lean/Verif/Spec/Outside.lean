import Verif.Go
/-!
# Specification: what stands outside of string literals and quoted names

A scanner for SQL text that knows only quotes: in a string literal a backslash takes the next character with it, in a quoted name nothing is
special but the closing backtick.  (Two adjacent quotes inside a literal, which denote one quote, end the literal and begin another one for
this scanner: that is the same as far as the rest of the text is concerned.)  It reads bytes, as a client does whose character set
is UTF-8 or a single-byte one.
-/

namespace Verif.Spec

/-- where the scanner is -/
inductive Place where
  | text
  | string
  | name
deriving Repr, DecidableEq

/-- The characters outside of string literals and quoted names, with the quotes; `none`: a literal or a name is not closed. -/
def outside : Place → Bytes → Option Bytes
  | .text, [] => some []
  | .text, 39 :: t => (outside .string t).map (39 :: ·)
  | .text, 96 :: t => (outside .name t).map (96 :: ·)
  | .text, c :: t => (outside .text t).map (c :: ·)
  | .string, 92 :: _ :: t => outside .string t
  | .string, 39 :: t => (outside .text t).map (39 :: ·)
  | .string, _ :: t => outside .string t
  | .name, 96 :: t => (outside .text t).map (96 :: ·)
  | .name, _ :: t => outside .name t
  | _, [] => none

example : outside .text (b! "replace into `a'b`.`t` values ('it\\'s; --',NULL);") = some (b! "replace into ``.`` values ('',NULL);") := by decide
example : outside .text (b! "('x'); drop table `t`; --')") = none := by decide
example : outside .text (b! "('x'); drop table `t`; --'')") = some (b! "(''); drop table ``; --'')") := by decide

end Verif.Spec
