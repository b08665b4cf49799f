import Verif.Spec.Text
/-!
# Specification: reading SQL

A lexer and parsers for the fragment of MySQL's SQL that matters here.  They reject everything they do not know (comments,
numbers, other prefixes of string literals, ...), so what they accept is read as MySQL reads it in its default SQL mode.
-/

namespace Verif.Spec

/-- Read a quoted identifier after its opening backtick; two adjacent backticks denote one. -/
def lexIdent : Bytes → Option (Bytes × Bytes)
  | [] => none
  | 96 :: 96 :: t => (lexIdent t).map fun r => (96 :: r.1, r.2)
  | 96 :: t => some ([], t)
  | c :: t => (lexIdent t).map fun r => (c :: r.1, r.2)

/-- Read a bit literal `b'0101'` after its opening quote; `acc` is the value of the digits read so far. -/
def lexBits (acc : Nat) : Bytes → Option (Nat × Bytes)
  | 48 :: t => lexBits (2 * acc) t
  | 49 :: t => lexBits (2 * acc + 1) t
  | 39 :: t => some (acc, t)
  | _ => none

/-- letters, digits, `_` and `$` -/
def wordChar (c : UInt8) : Bool :=
  (97 ≤ c.toNat && c.toNat ≤ 122) || (65 ≤ c.toNat && c.toNat ≤ 90) || (48 ≤ c.toNat && c.toNat ≤ 57) || c == 95 || c == 36

def lower (c : UInt8) : UInt8 := if 65 ≤ c.toNat ∧ c.toNat ≤ 90 then c + 32 else c

/-- tokens -/
inductive Tok where
  /-- a keyword or unquoted name, in lower case -/
  | word (w : Bytes)
  | ident (name : Bytes)
  | str (value : Bytes)
  | bits (n : Nat)
  /-- one of `( ) , . ; =` -/
  | sym (c : UInt8)
deriving Repr, DecidableEq

def symbols : Bytes := b! "(),.;="

/-- The token that begins with the character `c`, and the text behind it; `none` is a lexical error. -/
def lexOne (c : UInt8) (t : Bytes) : Option (Tok × Bytes) :=
  if c = 39 then (lexString t).map fun r => (.str r.1, r.2)
  else if c = 96 then (lexIdent t).map fun r => (.ident r.1, r.2)
  else if (c = 98 ∨ c = 66) ∧ t.head? = some 39 then (lexBits 0 t.tail).map fun r => (.bits r.1, r.2)
  else if wordChar c then
    let w := (c :: t).takeWhile wordChar
    let r := (c :: t).dropWhile wordChar
    if r.head? = some 39 then none else some (.word (w.map lower), r)
  else if c ∈ symbols then some (.sym c, t)
  else none

def space (c : UInt8) : Bool := c == 32 || c == 9 || c == 10 || c == 13

/-- All tokens; `fuel` bounds the number of steps. -/
def lexN : Nat → Bytes → Option (List Tok)
  | 0, _ => none
  | _ + 1, [] => some []
  | fuel + 1, c :: t =>
    if space c then lexN fuel t
    else
      match lexOne c t with
      | none => none
      | some (k, r) => if r.length ≤ t.length then (lexN fuel r).map (k :: ·) else none

def lex (s : Bytes) : Option (List Tok) := lexN (s.length + 1) s

/-! ## Values -/

/-- What a value expression denotes. -/
inductive SqlVal where
  | null
  | bytes (b : Bytes)
  /-- a bit string, by its numeric value -/
  | bits (n : Nat)
deriving Repr, DecidableEq

/-- string literals, bit literals and NULL -/
def evalLit : Tok → Option SqlVal
  | .word w => if w = b! "null" then some .null else none
  | .str b => some (.bytes b)
  | .bits n => some (.bits n)
  | _ => none

/-- `unhex(...)` -/
def evalUnhex : SqlVal → Option SqlVal
  | .null => some .null
  | .bytes b => match unhex b with
    | some b => some (.bytes b)
    | none => some .null
  | .bits _ => none

/-- A literal, or `unhex` of one. -/
def evalExpr : List Tok → Option SqlVal
  | [t] => evalLit t
  | [.word w, .sym 40, t, .sym 41] => if w = b! "unhex" then (evalLit t).bind evalUnhex else none
  | _ => none

/-- Split at the commas. -/
def commaGroups : List Tok → List (List Tok)
  | [] => [[]]
  | .sym 44 :: ts => [] :: commaGroups ts
  | t :: ts =>
    match commaGroups ts with
    | [] => [[t]]
    | g :: gs => (t :: g) :: gs

/-- A list of expressions separated by commas. -/
def evalList (ts : List Tok) : Option (List SqlVal) := if ts = [] then some [] else (commaGroups ts).mapM evalExpr

/-- A statement ``replace into `db`.`table` values (...);`` -/
structure Replace where
  db : Bytes
  table : Bytes
  values : List SqlVal
deriving Repr, DecidableEq

def parseReplace : List Tok → Option Replace
  | .word w1 :: .word w2 :: .ident db :: .sym 46 :: .ident table :: .word w3 :: .sym 40 :: ts =>
    if w1 = b! "replace" ∧ w2 = b! "into" ∧ w3 = b! "values" then
      match ts.reverse with
      | .sym 59 :: .sym 41 :: mid => (evalList mid.reverse).map fun vs => ⟨db, table, vs⟩
      | _ => none
    else none
  | _ => none

/-- The statement denoted by a text. -/
def readReplace (s : Bytes) : Option Replace := (lex s).bind parseReplace

example : readReplace (b! "REPLACE INTO `a``b`.`t` VALUES ( 'x''y\\n' , unhex('41'),NULL, b'101');") =
    some ⟨b! "a`b", b! "t", [.bytes (b! "x'y\n"), .bytes (b! "A"), .null, .bits 5]⟩ := by decide
example : readReplace (b! "replace into `d`.`t` values (bNULL);") = none := by decide
example : readReplace (b! "replace into `d`.`t` values ('a' 'b');") = none := by decide
example : readReplace (b! "replace into `d`.`t` values ();") = some ⟨b! "d", b! "t", []⟩ := by decide

/-! ## Numerals -/

/-- Value of a decimal numeral with an optional minus sign. -/
def intVal : Bytes → Option Int
  | 45 :: t => if t = [] then none else (decVal t).map fun n => -(n : Int)
  | t => if t = [] then none else (decVal t).map fun n => (n : Int)

/-- neither `012` nor `-0` -/
def NoLeadingZeros (x : Bytes) : Prop := x = [48] ∨ x.head? ≠ some 48 ∧ (x.head? = some 45 → x.tail.head? ≠ some 48)

instance (x : Bytes) : Decidable (NoLeadingZeros x) := inferInstanceAs (Decidable (_ ∨ _))

/-- The decimal numeral of a number, as MySQL writes it. -/
def Numeral (x : Bytes) (i : Int) : Prop := intVal x = some i ∧ NoLeadingZeros x

instance (x : Bytes) (i : Int) : Decidable (Numeral x i) := inferInstanceAs (Decidable (_ ∧ _))

example : Numeral (b! "0") 0 ∧ Numeral (b! "-12") (-12) ∧ Numeral (b! "305") 305 := by decide
example : ¬ Numeral (b! "012") 12 ∧ ¬ Numeral (b! "-0") 0 ∧ ¬ Numeral (b! "") 0 ∧ ¬ Numeral (b! "+1") 1 := by decide

end Verif.Spec
