import Verif.Go
/-!
# Specification: decimal text, hexadecimal text, calendar, SQL string literals
-/

namespace Verif.Spec

/-- `n` written with exactly `w` decimal digits. -/
def decEnc : Nat → Nat → Bytes
  | 0, _ => []
  | w + 1, n => UInt8.ofNat (48 + n / 10 ^ w % 10) :: decEnc w n

/-- Value of a decimal numeral; `none` if some byte is not a digit. -/
def decVal (b : Bytes) : Option Nat :=
  b.foldl (fun acc x => acc.bind fun a => if 48 ≤ x.toNat ∧ x.toNat ≤ 57 then some (a * 10 + (x.toNat - 48)) else none)
    (some 0)

/-- Value of a hexadecimal digit (either case). -/
def hexVal (x : UInt8) : Option Nat :=
  if 48 ≤ x.toNat ∧ x.toNat ≤ 57 then some (x.toNat - 48)
  else if 97 ≤ x.toNat ∧ x.toNat ≤ 102 then some (x.toNat - 87)
  else if 65 ≤ x.toNat ∧ x.toNat ≤ 70 then some (x.toNat - 55)
  else none

/-- MySQL `unhex()`: pairs of hexadecimal digits (an odd number of digits or another character gives NULL). -/
def unhex : Bytes → Option Bytes
  | [] => some []
  | [_] => none
  | a :: b :: t => do
    let hi ← hexVal a
    let lo ← hexVal b
    let rest ← unhex t
    return UInt8.ofNat (16 * hi + lo) :: rest

/-! ## White space -/

/-- the characters with the property White_Space, in UTF-8 (Unicode, PropList.txt) -/
def whiteSpace : List Bytes :=
  [[9], [10], [11], [12], [13], [32], [0xC2, 0x85], [0xC2, 0xA0], [0xE1, 0x9A, 0x80], [0xE2, 0x80, 0x80], [0xE2, 0x80, 0x81], [0xE2, 0x80, 0x82],
    [0xE2, 0x80, 0x83], [0xE2, 0x80, 0x84], [0xE2, 0x80, 0x85], [0xE2, 0x80, 0x86], [0xE2, 0x80, 0x87], [0xE2, 0x80, 0x88], [0xE2, 0x80, 0x89],
    [0xE2, 0x80, 0x8A], [0xE2, 0x80, 0xA8], [0xE2, 0x80, 0xA9], [0xE2, 0x80, 0xAF], [0xE2, 0x81, 0x9F], [0xE3, 0x80, 0x80]]

/-- the text neither begins nor ends with white space -/
def Edged (s : Bytes) : Prop := ∀ w ∈ whiteSpace, ¬ w <+: s ∧ ¬ w <:+ s

instance (s : Bytes) : Decidable (Edged s) := inferInstanceAs (Decidable (∀ w ∈ whiteSpace, _))

/-! ## Calendar -/

def leapYear (y : Nat) : Prop := y % 4 = 0 ∧ (y % 100 ≠ 0 ∨ y % 400 = 0)
instance (y : Nat) : Decidable (leapYear y) := inferInstanceAs (Decidable (_ ∧ _))

/-- Days of a month of a year. -/
def daysIn (y m : Nat) : Nat :=
  if m = 2 then if leapYear y then 29 else 28
  else if m ∈ [4, 6, 9, 11] then 30 else 31

/-- Number of days from January 1st of year 1 to January 1st of year `y` (proleptic Gregorian calendar). -/
def daysBeforeYear (y : Nat) : Nat := 365 * (y - 1) + (y - 1) / 4 - (y - 1) / 100 + (y - 1) / 400

/-- Number of days from January 1st to the first of month `m`, in a common year. -/
def daysBeforeMonth (m : Nat) : Nat := [0, 0, 31, 59, 90, 120, 151, 181, 212, 243, 273, 304, 334].getD m 0

/-- Day number of a date (January 1st of year 1 is day 0). -/
def dayNumber (y m d : Nat) : Nat :=
  daysBeforeYear y + daysBeforeMonth m + (if m > 2 ∧ leapYear y then 1 else 0) + (d - 1)

structure Civil where
  year : Nat
  month : Nat
  day : Nat
  hour : Nat
  min : Nat
  sec : Nat
deriving Repr, DecidableEq

/-- A valid calendar date and time of day, year 1 to 9999. -/
def Civil.Valid (c : Civil) : Prop :=
  1 ≤ c.year ∧ c.year ≤ 9999 ∧ 1 ≤ c.month ∧ c.month ≤ 12 ∧ 1 ≤ c.day ∧ c.day ≤ daysIn c.year c.month ∧
  c.hour < 24 ∧ c.min < 60 ∧ c.sec < 60
instance (c : Civil) : Decidable c.Valid := inferInstanceAs (Decidable (_ ∧ _))

/-- Seconds since 1970-01-01 00:00:00 (which is day 719162). -/
def Civil.epoch (c : Civil) : Int :=
  ((dayNumber c.year c.month c.day : Int) - 719162) * 86400 + c.hour * 3600 + c.min * 60 + c.sec

/-- `YYYY-MM-DD hh:mm:ss` -/
def Civil.text (c : Civil) : Bytes :=
  decEnc 4 c.year ++ b! "-" ++ decEnc 2 c.month ++ b! "-" ++ decEnc 2 c.day ++ b! " " ++
  decEnc 2 c.hour ++ b! ":" ++ decEnc 2 c.min ++ b! ":" ++ decEnc 2 c.sec

/-! ## SQL string literals -/

/-- The meaning of the character after a backslash in a MySQL string literal. -/
def unescape (c : UInt8) : Bytes :=
  if c = 48 then [0]            -- \0
  else if c = 98 then [8]       -- \b
  else if c = 110 then [10]     -- \n
  else if c = 114 then [13]     -- \r
  else if c = 116 then [9]      -- \t
  else if c = 90 then [26]      -- \Z
  else if c = 37 then [92, 37]  -- \% stays as it is
  else if c = 95 then [92, 95]  -- \_ stays as it is
  else [c]

/-- Read a string literal after its opening quote: the string and the text behind the closing quote.
Two adjacent quotes denote one.  (The connection character set is assumed to be one in which no multi-byte character
contains an ASCII byte, such as utf8, latin1 or binary.) -/
def lexString : Bytes → Option (Bytes × Bytes)
  | [] => none
  | 39 :: 39 :: t => (lexString t).map fun r => (39 :: r.1, r.2)
  | 39 :: t => some ([], t)
  | [92] => none
  | 92 :: c :: t => (lexString t).map fun r => (unescape c ++ r.1, r.2)
  | c :: t => (lexString t).map fun r => (c :: r.1, r.2)

end Verif.Spec
