import Verif.Spec.Temporal
import Verif.Spec.Columns
/-!
# Specification: typed column values

For each MySQL type: how a value is stored in a record, and the text that denotes it as a SQL string literal.
-/

namespace Verif.Spec

/-- A value other than NULL, with its type. -/
inductive TVal where
  /-- TINYINT (1 byte) to BIGINT (8 bytes) -/
  | int (w : Nat) (i : Int)
  /-- the unsigned types, ENUM, SET -/
  | uint (w n : Nat)
  | bit (w n : Nat)
  | year (y : Nat)
  | date (y m d : Nat)
  /-- TIME of MySQL 5.6 and later, without fraction -/
  | time (neg : Bool) (h m s : Nat)
  /-- DATETIME before MySQL 5.6 -/
  | datetimeOld (c : Civil)
  /-- DATETIME of MySQL 5.6 and later, without fraction -/
  | datetime (c : Civil)
  /-- TIMESTAMP: seconds since 1970 and the clock reading at that time in the time zone of the session (0 stands for the date that is zero, see C92) -/
  | timestamp (t : Nat) (c : Civil)
  /-- by their bit patterns -/
  | float (bits : Nat)
  | double (bits : Nat)
  | varcharLatin1 (s : Bytes)
  /-- with its padding -/
  | charLatin1 (s : Bytes)
  | varchar (s : Bytes)
  /-- CHAR in another character set: the string, and the number of spaces it is padded with -/
  | char (s : Bytes) (pad : Nat)
  | text (s : Bytes)
  | binary (s : Bytes)
  | varbinary (s : Bytes)
  | blob (s : Bytes)
deriving Repr, DecidableEq

/-- the stored bytes -/
def TVal.enc : TVal → Bytes
  | .int w i => intEnc w i
  | .uint w n | .bit w n => beEnc w n
  | .year y => beEnc 1 (if y = 0 then 0 else y - 1900)
  | .date y m d => dateEnc y m d
  | .time neg h m s => timeEnc neg h m s
  | .datetimeOld c => datetimeOldEnc c
  | .datetime c => datetimeNewEnc c
  | .timestamp t _ => beEnc 4 t
  | .float b => leEnc 4 b
  | .double b => leEnc 8 b
  | .varcharLatin1 s | .charLatin1 s | .varchar s | .text s | .binary s | .varbinary s | .blob s => s
  | .char s k => s ++ List.replicate k 32

/-- a number in decimal -/
def intText (i : Int) : Bytes := if i < 0 then 45 :: dec i.natAbs else dec i.natAbs

/-- The contents of a string literal that denotes the value when compared with, or assigned to, a column of the type.  (A
string assigned to a BIT column gives its bytes.  How floating point numbers are written is a parameter.) -/
def TVal.lit (ff : FloatFmt) : TVal → Bytes
  | .int _ i => intText i
  | .uint _ n => dec n
  | .bit w n => beEnc w n
  | .year y => decEnc 4 y
  | .date y m d => decEnc 4 y ++ b! "-" ++ decEnc 2 m ++ b! "-" ++ decEnc 2 d
  | .time neg h m s => (if neg then b! "-" else []) ++ yearText h ++ b! ":" ++ decEnc 2 m ++ b! ":" ++ decEnc 2 s
  | .datetimeOld c | .datetime c | .timestamp _ c => c.text
  | .float b => ff.f32 b
  | .double b => ff.f64 b
  | .varcharLatin1 s | .charLatin1 s | .varchar s | .text s | .binary s | .varbinary s | .blob s => s
  | .char s _ => s

/-- the values of each type -/
def TVal.Fits (zone : Nat → Int) : TVal → Prop
  | .int w i => w ∈ [1, 2, 3, 4, 8] ∧ -(2 ^ (8 * w - 1)) ≤ i ∧ i < 2 ^ (8 * w - 1)
  | .uint w n => w ∈ [1, 2, 3, 4, 8] ∧ n < 256 ^ w
  | .bit w n => 1 ≤ w ∧ w ≤ 8 ∧ n < 256 ^ w
  | .year y => y = 0 ∨ (1901 ≤ y ∧ y ≤ 2155)
  | .date y m d => 1000 ≤ y ∧ y ≤ 9999 ∧ 1 ≤ m ∧ m ≤ 12 ∧ 1 ≤ d ∧ d ≤ daysIn y m
  | .time neg h m s => h ≤ 838 ∧ m < 60 ∧ s < 60 ∧ (neg = true → h * 4096 + m * 64 + s ≠ 0)
  | .datetimeOld c | .datetime c => c.Valid ∧ 1000 ≤ c.year
  | .timestamp t c => 1 ≤ t ∧ t < 2 ^ 32 ∧ -86400 ≤ zone t ∧ zone t ≤ 86400 ∧ c.Valid ∧ c.epoch = t + zone t
  | .float b => b < 2 ^ 32
  | .double b => b < 2 ^ 64
  | .char s _ => s.getLast? ≠ some 32
  | _ => True

/-- The entry `c` of the tool's dictionary is for a column of the type of the value (DATA_* main type, MySQL type, sign,
length, and that BLOB columns are marked as binary). -/
def TVal.Of (c : Column) : TVal → Prop
  | .int w _ => c.ftype = 6 ∧ c.mtype ≠ 10 ∧ c.mtype ≠ 13 ∧ c.isUnsigned = false ∧ c.len = w
  | .uint w _ => c.ftype = 6 ∧ c.mtype ≠ 10 ∧ c.mtype ≠ 13 ∧ c.isUnsigned = true ∧ c.len = w
  | .bit w _ => c.ftype = 3 ∧ c.mtype = 16 ∧ c.len = w
  | .year _ => c.ftype = 6 ∧ c.mtype = 13
  | .date _ _ _ => c.ftype = 6 ∧ c.mtype = 10
  | .time _ _ _ _ => c.ftype = 3 ∧ c.mtype = 11
  | .datetimeOld _ | .datetime _ => c.ftype = 3 ∧ c.mtype = 12
  | .timestamp _ _ => c.ftype = 3 ∧ c.mtype = 7
  | .float _ => c.ftype = 9
  | .double _ => c.ftype = 10
  | .varcharLatin1 _ => c.ftype = 1
  | .charLatin1 _ => c.ftype = 2
  | .varchar _ => c.ftype = 12
  | .char _ _ => c.ftype = 13
  | .text _ => c.ftype = 5 ∧ c.isBinary = false
  | .binary _ => c.ftype = 3 ∧ c.mtype = 254
  | .varbinary _ => c.ftype = 4 ∧ c.mtype = 15
  | .blob _ => c.ftype = 5 ∧ c.isBinary = true

example : (TVal.int 3 (-2)).enc = [127, 255, 254] ∧ (TVal.year 2019).enc = [119] ∧ (TVal.char (b! "ab") 2).enc = b! "ab  " := by decide
example : (TVal.int 3 (-2)).lit ⟨fun _ => [], fun _ => []⟩ = b! "-2" ∧ (TVal.date 2019 2 3).lit ⟨fun _ => [], fun _ => []⟩ = b! "2019-02-03" := by decide

end Verif.Spec
