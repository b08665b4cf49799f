import Verif.Spec.Text
import Verif.Spec.Ints
/-!
# Specification: how InnoDB stores dates and times
-/

namespace Verif.Spec

/-- InnoDB's DATE: three bytes, sign bit inverted, 14+4+5 bits. -/
def dateEnc (year month day : Nat) : Bytes := beEnc 3 (0x800000 + year * 512 + month * 32 + day)

/-- year as printed by `%02d` -/
def yearText (y : Nat) : Bytes :=
  if y < 100 then decEnc 2 y else if y < 1000 then decEnc 3 y else if y < 10000 then decEnc 4 y else decEnc 5 y

/-- The pre-5.6 DATETIME: the decimal number YYYYMMDDhhmmss as an eight-byte integer with inverted sign bit. -/
def datetimeOldEnc (c : Civil) : Bytes :=
  beEnc 8 (2 ^ 63 + ((((c.year * 100 + c.month) * 100 + c.day) * 100 + c.hour) * 100 + c.min) * 100 + c.sec)

/-- The 5.6 DATETIME2: five bytes, sign bit 1, then year*13+month (17 bits), day (5), hour (5), minute (6),
second (6). -/
def datetimeNewEnc (c : Civil) : Bytes :=
  beEnc 5 (2 ^ 39 + (c.year * 13 + c.month) * 2 ^ 22 + c.day * 2 ^ 17 + c.hour * 2 ^ 12 + c.min * 2 ^ 6 + c.sec)

/-- The 5.6 TIME2 without fraction: three bytes, 0x800000 plus or minus hour*4096 + minute*64 + second. -/
def timeEnc (neg : Bool) (h m s : Nat) : Bytes :=
  beEnc 3 (if neg then 0x800000 - (h * 4096 + m * 64 + s) else 0x800000 + (h * 4096 + m * 64 + s))

end Verif.Spec
