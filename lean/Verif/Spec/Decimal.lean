import Verif.Spec.Ints
/-!
# Specification: DECIMAL columns

Written from the documentation of `decimal2bin` and `internal_str2dec` (strings/decimal.c of MySQL), independently of the model.
-/

namespace Verif.Spec

/-! ## How a DECIMAL(p, s) is stored -/

/-- `k` groups of nine digits, four bytes each -/
def wholeGroups : Nat → Nat → List (Nat × Nat)
  | 0, _ => []
  | k + 1, v => (4, v / 10 ^ (9 * k)) :: wholeGroups k (v % 10 ^ (9 * k))

/-- the remaining `d` digits, `d < 9`: two digits need one byte -/
def partGroup (d v : Nat) : List (Nat × Nat) := if d = 0 then [] else [((d + 1) / 2, v)]

/-- The groups of the number `a / 10 ^ s`: the number of bytes and the value of each.  The digits in front of the point are divided from the
point to the left, those behind it from the point to the right. -/
def decimalGroups (p s a : Nat) : List (Nat × Nat) :=
  partGroup ((p - s) % 9) (a / 10 ^ s / 10 ^ (9 * ((p - s) / 9))) ++ wholeGroups ((p - s) / 9) (a / 10 ^ s % 10 ^ (9 * ((p - s) / 9))) ++
    wholeGroups (s / 9) (a % 10 ^ s / 10 ^ (s % 9)) ++ partGroup (s % 9) (a % 10 ^ s % 10 ^ (s % 9))

/-- The bytes of `n / 10 ^ s` in a column DECIMAL(p, s): all bits are inverted if the number is negative, and then the highest bit of the first
byte (here by adding 128). -/
def decimalEnc (p s : Nat) (n : Int) : Bytes :=
  let b := (decimalGroups p s n.natAbs).flatMap fun g => beEnc g.1 g.2
  match if n < 0 then b.map (255 - ·) else b with
  | [] => []
  | x :: t => (x + 128) :: t

/-- 1234567890.1234 and its negative in a column DECIMAL(14, 4), the example of the MySQL sources -/
example : decimalEnc 14 4 12345678901234 = [0x81, 0x0D, 0xFB, 0x38, 0xD2, 0x04, 0xD2] := by decide
example : decimalEnc 14 4 (-12345678901234) = [0x7E, 0xF2, 0x04, 0xC7, 0x2D, 0xFB, 0x2D] := by decide

/-! ## How a server reads a string that is assigned to a DECIMAL column -/

def numDigit (x : UInt8) : Bool := 48 ≤ x.toNat && x.toNat ≤ 57

def numSpace (x : UInt8) : Bool := x.toNat = 32 || (9 ≤ x.toNat && x.toNat ≤ 13)

def natOf (ds : Bytes) : Nat := ds.foldl (fun a x => 10 * a + (x.toNat - 48)) 0

/-- the exponent, if there is one -/
def readExponent : Bytes → Int
  | c :: t =>
    if c = 101 ∨ c = 69 then
      match t with
      | 45 :: t => -(natOf (t.takeWhile numDigit))
      | 43 :: t => natOf (t.takeWhile numDigit)
      | t => natOf (t.takeWhile numDigit)
    else 0
  | [] => 0

/-- a number without sign, as `m * 10 ^ e`; at least one digit is needed -/
def readUnsigned (b : Bytes) : Option (Nat × Int) :=
  let i := b.takeWhile numDigit
  let r := b.dropWhile numDigit
  match r with
  | 46 :: t =>
    let f := t.takeWhile numDigit
    if i = [] ∧ f = [] then none else some (natOf (i ++ f), readExponent (t.dropWhile numDigit) - f.length)
  | r => if i = [] then none else some (natOf i, readExponent r)

/-- A number at the beginning of the text.  What stands behind it is passed over, as a server does with a warning when its SQL mode is not strict;
when it is strict it reports an error, that is, it accepts less. -/
def readNumber (b : Bytes) : Option (Int × Int) :=
  match b.dropWhile numSpace with
  | 45 :: t => (readUnsigned t).map fun r => (-(r.1 : Int), r.2)
  | 43 :: t => (readUnsigned t).map fun r => ((r.1 : Int), r.2)
  | t => (readUnsigned t).map fun r => ((r.1 : Int), r.2)

/-- `m * 10 ^ e` is `n / 10 ^ s` -/
def SameNumber (n : Int) (s : Nat) (m e : Int) : Prop := m * 10 ^ (e + s).toNat = n * 10 ^ (-(e + s)).toNat

example : readNumber (b! " -12.50") = some (-1250, -2) := by decide
example : SameNumber (-125) 1 (-1250) (-2) := by unfold SameNumber; decide
example : readNumber (b! "+.5e3 x") = some (5, 2) := by decide
example : readNumber (b! "-.") = none := by decide

end Verif.Spec
