import Verif.Model.Runes
/-!
# Model of `recovery/utils/utils.go` and `recovery/utils/const.go`
-/

namespace Verif

/-! ## Constants (recovery/utils/const.go:18-110) -/

/-! InnoDB main types, const.go:18-68 -/
def DATA_MISSING : Nat := 0
def DATA_VARCHAR : Nat := 1
def DATA_CHAR : Nat := 2
def DATA_FIXBINARY : Nat := 3
def DATA_BINARY : Nat := 4
def DATA_BLOB : Nat := 5
def DATA_INT : Nat := 6
def DATA_SYS_CHILD : Nat := 7
def DATA_SYS : Nat := 8
def DATA_FLOAT : Nat := 9
def DATA_DOUBLE : Nat := 10
def DATA_DECIMAL : Nat := 11
def DATA_VARMYSQL : Nat := 12
def DATA_MYSQL : Nat := 13

/-! MySQL types, const.go:71-102 (only those mentioned by the code) -/
def MYSQL_TYPE_LONG : Nat := 3
def MYSQL_TYPE_TIMESTAMP : Nat := 7
def MYSQL_TYPE_DATE : Nat := 10
def MYSQL_TYPE_TIME : Nat := 11
def MYSQL_TYPE_DATETIME : Nat := 12
def MYSQL_TYPE_YEAR : Nat := 13
def MYSQL_TYPE_VARCHAR : Nat := 15
def MYSQL_TYPE_BIT : Nat := 16
def MYSQL_TYPE_NEWDECIMAL : Nat := 246
def MYSQL_TYPE_TINY_BLOB : Nat := 249
def MYSQL_TYPE_MEDIUM_BLOB : Nat := 250
def MYSQL_TYPE_LONG_BLOB : Nat := 251
def MYSQL_TYPE_BLOB : Nat := 252
def MYSQL_TYPE_STRING : Nat := 254

/-! const.go:105-110 -/
def TinyIntRange : Int := 128 * 2
def SmallIntRange : Int := 32768 * 2
def IntRange : Int := 2147483648 * 2

/-! ## Fixed-width big-endian reads -/

/-- utils.go:220-223 `MatchReadFrom1` -/
def matchReadFrom1 (b : Bytes) : Option Nat :=
  match b with
  | b0 :: _ => some b0.toNat
  | _ => none

/-- utils.go:225-228 `MatchReadFrom2` -/
def matchReadFrom2 (b : Bytes) : Option Nat :=
  match b with
  | b0 :: b1 :: _ => some ((b0.toNat <<< 8) ||| b1.toNat)
  | _ => none

/-- utils.go:230-235 `MatchReadFrom3` -/
def matchReadFrom3 (b : Bytes) : Option Nat :=
  match b with
  | b0 :: b1 :: b2 :: _ => some ((b0.toNat <<< 16) ||| (b1.toNat <<< 8) ||| b2.toNat)
  | _ => none

/-- utils.go:237-243 `MatchReadFrom4` -/
def matchReadFrom4 (b : Bytes) : Option Nat :=
  match b with
  | b0 :: b1 :: b2 :: b3 :: _ =>
    some ((b0.toNat <<< 24) ||| (b1.toNat <<< 16) ||| (b2.toNat <<< 8) ||| b3.toNat)
  | _ => none

/-- utils.go:250-253 `UtUllCreate` -/
def utUllCreate (high low : Nat) : Nat := u64 (high <<< 32) ||| low

/-- utils.go:245-248 `MatchReadFrom7` -/
def matchReadFrom7 (b : Bytes) : Option Nat := do
  let hi ← matchReadFrom3 b
  let lo ← matchReadFrom4 (← sliceFrom b 3)
  return utUllCreate hi lo

/-- utils.go:255-260 `MatchReadFrom8` -/
def matchReadFrom8 (b : Bytes) : Option Nat := do
  let ull := u64 ((← matchReadFrom4 b) <<< 32)
  return ull ||| (← matchReadFrom4 (← sliceFrom b 4))

/-! `f(data[pos:])` for the reads above (the call pattern used throughout the code). -/
def read1 (d : Bytes) (pos : Nat) : Option Nat := do matchReadFrom1 (← sliceFrom d pos)
def read2 (d : Bytes) (pos : Nat) : Option Nat := do matchReadFrom2 (← sliceFrom d pos)
def read3 (d : Bytes) (pos : Nat) : Option Nat := do matchReadFrom3 (← sliceFrom d pos)
def read4 (d : Bytes) (pos : Nat) : Option Nat := do matchReadFrom4 (← sliceFrom d pos)
def read7 (d : Bytes) (pos : Nat) : Option Nat := do matchReadFrom7 (← sliceFrom d pos)
def read8 (d : Bytes) (pos : Nat) : Option Nat := do matchReadFrom8 (← sliceFrom d pos)

/-! ## Record bit fields -/

/-- utils.go:166-170 `RecGetBitField1`; `offset - offs` is a wrapping `uint64` subtraction -/
def recGetBitField1 (rec : Bytes) (offset offs mask shift : Nat) : Option Nat := do
  return ((← read1 rec (sub64 offset offs)) &&& mask) >>> shift

/-- utils.go:33-39 `RecGetStatus` -/
def recGetStatus (rec : Bytes) (offset : Nat) : Option Nat := recGetBitField1 rec offset 3 0x7 0

/-- utils.go:41-44 `UtAlignOffset` -/
def utAlignOffset (rec : Bytes) (alignNo : Nat) : Option Nat := do
  return (← matchReadFrom1 rec) &&& (sub64 alignNo 1)

/-- utils.go:159-164 `RecGet1byteOffsFlag` -/
def recGet1byteOffsFlag (rec : Bytes) (offset : Nat) : Option Nat := recGetBitField1 rec offset 3 0x1 0

/-- utils.go:147-151 `Rec1GetFieldEndInfo` -/
def rec1GetFieldEndInfo (d : Bytes) (offset n : Nat) : Option Nat := read1 d (sub64 offset (6 + n + 1))

/-- utils.go:153-157 `Rec2GetFieldEndInfo` -/
def rec2GetFieldEndInfo (d : Bytes) (offset n : Nat) : Option Nat := read2 d (sub64 offset (6 + 2 * n + 2))

/-- utils.go:262-265 `pageHeaderGetField` -/
def pageHeaderGetField (b : Bytes) (field : Nat) : Option Nat := read2 b (38 + field)

/-- utils.go:267-271 `PageIsCompact` -/
def pageIsCompact (b : Bytes) : Option Nat := do return (← pageHeaderGetField b 4) &&& 0x8000

/-! ## The offsets array of a record -/

/-- utils.go:116-124 `RecOffsNthSize` -/
def recOffsNthSize (offsets : List Nat) (n : Nat) : Option Nat := do
  let base ← sliceFrom offsets 2
  if n = 0 then
    return (← base[1 + n]?) &&& ((1 <<< 30) - 1)
  return (sub64 (← base[1 + n]?) (← base[n]?)) &&& ((1 <<< 30) - 1)

/-- utils.go:142-145 `RecOffNFields` -/
def recOffNFields (offsets : List Nat) : Option Nat := offsets[1]?

/-- utils.go:131-135 `RecOffsExtraSize` -/
def recOffsExtraSize (offsets : List Nat) : Option Nat := do
  let base ← sliceFrom offsets 2
  return andNot64 (← base[0]?) ((1 <<< 31) ||| (1 <<< 30))

/-- utils.go:137-140 `RecOffsDataSize` -/
def recOffsDataSize (offsets : List Nat) : Option Nat := do
  let base ← sliceFrom offsets 2
  base[← recOffNFields offsets]?

/-- utils.go:126-129 `RecOffsSize` -/
def recOffsSize (offsets : List Nat) : Option Nat := do
  return u64 ((← recOffsDataSize offsets) + (← recOffsExtraSize offsets))

/-- utils.go:180-206 `RecGetNthFieldOffs`: returns the offset and the length (`*len`) -/
def recGetNthFieldOffs (offsets : List Nat) (n : Nat) : Option (Nat × Nat) := do
  let base ← sliceFrom offsets 2
  let offs ← if n = 0 then pure 0 else do pure ((← base[n]?) &&& ((1 <<< 30) - 1))
  let length ← base[n + 1]?
  let length :=
    if length &&& (1 <<< 31) = 0 then sub64 (length &&& ((1 <<< 30) - 1)) offs else 0xFFFFFFFF
  return (offs, length)

/-- utils.go:172-178 `RecGetNthField`: returns the field's slice and its length -/
def recGetNthField (rec : Bytes) (offsets : List Nat) (n : Nat) : Option (Bytes × Nat) := do
  let (offs, length) ← recGetNthFieldOffs offsets n
  return (← sliceFrom rec offs, length)

/-! ## Compressed integers -/

/-- The three results of `MatchParseCompressed`: value, number of bytes, error. -/
structure PC where
  val : Nat
  num : Nat
  err : Option Bytes
deriving Repr, DecidableEq

def errTooShortCompressed : Bytes := b! "data too short, method is MatchParseCompressed"

/-- utils.go:273-308 `MatchParseCompressed`.  The `strconv.ParseInt` calls are on constants and never fail. -/
def matchParseCompressed (data : Bytes) (pos : Nat) : Option PC := do
  let flag ← read1 data pos
  if flag < 0x80 then
    return ⟨flag, 1, none⟩
  else if flag < 0xC0 then
    return ⟨(← read2 data pos) &&& 0x7FFF, 2, none⟩
  else if flag < 0xE0 then
    return ⟨(← read3 data pos) &&& 0x3FFFFF, 3, none⟩
  else if flag < 0xF0 then
    return ⟨(← read4 data pos) &&& 0x1FFFFFFF, 4, none⟩
  else
    if pos + 5 > data.length then
      return ⟨0, 5, some errTooShortCompressed⟩
    return ⟨← read4 data (pos + 1), 5, none⟩

/-- utils.go:310-335 `MatchGetCompressedSize`; its error result is always `nil` and is not modelled. -/
def matchGetCompressedSize (n : Nat) : Nat :=
  if n < 0x80 then 1
  else if n < 0x4000 then 2
  else if n < 0x200000 then 3
  else if n < 0x10000000 then 4
  else 5

/-- utils.go:401-418 `MatchUllReadComPressed`: returns value and new `*pos`; prints on error.  On a panic the
cursor has already been advanced by `num`, hence the cursor is part of the state. -/
def matchUllReadComPressed (b : Bytes) : GoM (Nat × Out) Nat := fun (pos, out) =>
  match matchParseCompressed b pos with
  | none => .panic (pos, out)
  | some pc =>
    let pos := pos + pc.num
    let out := match pc.err with
      | some e => out ++ [e]
      | none => out
    let size := matchGetCompressedSize pc.val
    let n := u64 (pc.val <<< 32)
    -- b[*pos:][size:]
    match (do let s ← sliceFrom b pos; let s ← sliceFrom s size; matchReadFrom4 s) with
    | none => .panic (pos, out)
    | some low => .ok (n ||| low) (pos + 4, out)

/-- utils.go:420-451 `MatchUllReadMuchCompressed`.  The inner `n, _, err :=` of the `else` branch declares new
variables, so the outer `n` stays 0 in both branches. -/
def matchUllReadMuchCompressed (b : Bytes) : Option (Nat × Option Bytes) := do
  let b0 ← b[0]?
  if b0 ≠ 0xFF then
    let pc ← matchParseCompressed b 0
    match pc.err with
    | some e => return (0, some e)
    | none => return (0 ||| pc.val, none)
  else
    let hi ← matchParseCompressed b 1
    match hi.err with
    | some e => return (0, some e)
    | none =>
      let size := 1 + matchGetCompressedSize hi.val
      let pc ← matchParseCompressed b size
      match pc.err with
      | some e => return (0, some e)
      | none => return (0 ||| pc.val, none)

/-- utils.go:453-471 `MachUllGetMuchCompressedSize` -/
def machUllGetMuchCompressedSize (num : Nat) : Nat :=
  let n := matchGetCompressedSize num
  if num >>> 32 = 0 then n
  else matchGetCompressedSize (num >>> 32) + matchGetCompressedSize (num &&& 0xFFFFFFFF)

/-! ## Integer columns -/

/-- utils.go:46-91 `GetIntValue` -/
def getIntValue (fixLength : Nat) (value : Bytes) : Option Val :=
  match fixLength with
  | 1 => do
    let v1 := ((← matchReadFrom1 value) &&& 0x7F) ||| (not64 (← matchReadFrom1 value) &&& 0x80)
    let t := (toI64 v1).tmod TinyIntRange
    return .int (if t > TinyIntRange / 2 - 1 then t - TinyIntRange else t)
  | 2 => do
    let v2 := ((← matchReadFrom2 value) &&& 0x7FFF) ||| (not64 (← matchReadFrom2 value) &&& 0x8000)
    let t := (toI64 v2).tmod SmallIntRange
    return .int (if t > SmallIntRange / 2 - 1 then t - SmallIntRange else t)
  | 3 => do
    let v3 ← matchReadFrom3 value
    if v3 >>> 23 = 1 then
      return .uint (v3 &&& 0x007FFFFF)
    -- int64(v3) ^ (-1 << 23), on 64-bit two's complement
    return .int (toI64 (v3 ^^^ (2 ^ 64 - 2 ^ 23)))
  | 4 => do
    let v4 := ((← matchReadFrom4 value) &&& 0x7FFFFFFF) ||| (not64 (← matchReadFrom4 value) &&& 0x80000000)
    let t := (toI64 v4).tmod IntRange
    return .int (if t > IntRange / 2 - 1 then t - IntRange else t)
  | 8 => do
    let v8 := ((← matchReadFrom8 value) &&& 0x7FFFFFFFFFFFFFFF) |||
      (not64 (← matchReadFrom8 value) &&& 0x8000000000000000)
    return .int (toI64 v8)
  | _ => some (.int 0)

/-- utils.go:93-114 `GetUintValue` -/
def getUintValue (fixLength : Nat) (value : Bytes) : Option Nat :=
  match fixLength with
  | 1 => matchReadFrom1 value
  | 2 => matchReadFrom2 value
  | 3 => do return (← matchReadFrom3 value) &&& 0x3FFFFF
  | 4 => matchReadFrom4 value
  | 5 => do return (← matchReadFrom8 value) >>> 24
  | 6 => do return (← matchReadFrom8 value) >>> 16
  | 7 => do return (← matchReadFrom8 value) >>> 8
  | 8 => matchReadFrom8 value
  | _ => some 0

/-! ## Little-endian helpers -/

/-- `binary.LittleEndian.Uint16` -/
def le16 (d : Bytes) : Option Nat :=
  match d with
  | b0 :: b1 :: _ => some (b0.toNat ||| (b1.toNat <<< 8))
  | _ => none

/-- `binary.LittleEndian.Uint32` -/
def le32 (d : Bytes) : Option Nat :=
  match d with
  | b0 :: b1 :: b2 :: b3 :: _ =>
    some (b0.toNat ||| (b1.toNat <<< 8) ||| (b2.toNat <<< 16) ||| (b3.toNat <<< 24))
  | _ => none

/-- `binary.LittleEndian.Uint64` -/
def le64 (d : Bytes) : Option Nat :=
  match d with
  | b0 :: b1 :: b2 :: b3 :: b4 :: b5 :: b6 :: b7 :: _ =>
    some (b0.toNat ||| (b1.toNat <<< 8) ||| (b2.toNat <<< 16) ||| (b3.toNat <<< 24) |||
      (b4.toNat <<< 32) ||| (b5.toNat <<< 40) ||| (b6.toNat <<< 48) ||| (b7.toNat <<< 56))
  | _ => none

/-- reinterpret the low `w` bits as a two's complement number (`int8(x)`, `int16(x)`, `int32(x)`) -/
def toSigned (w : Nat) (n : Nat) : Int :=
  if n % 2 ^ w < 2 ^ (w - 1) then (n % 2 ^ w : Nat) else (n % 2 ^ w : Nat) - 2 ^ w

/-- utils.go:337-340 `ParseBinaryInt8` -/
def parseBinaryInt8 (d : Bytes) : Option Int := do return toSigned 8 (← matchReadFrom1 d)
/-- utils.go:342-345 `ParseBinaryUint8` -/
def parseBinaryUint8 (d : Bytes) : Option Nat := matchReadFrom1 d
/-- utils.go:347-350 `ParseBinaryInt16` -/
def parseBinaryInt16 (d : Bytes) : Option Int := do return toSigned 16 (← le16 d)
/-- utils.go:352-355 `ParseBinaryUint16` -/
def parseBinaryUint16 (d : Bytes) : Option Nat := le16 d
/-- utils.go:366-369 `ParseBinaryUint24` -/
def parseBinaryUint24 (d : Bytes) : Option Nat :=
  match d with
  | b0 :: b1 :: b2 :: _ => some (b0.toNat ||| (b1.toNat <<< 8) ||| (b2.toNat <<< 16))
  | _ => none
/-- utils.go:357-364 `ParseBinaryInt24` -/
def parseBinaryInt24 (d : Bytes) : Option Int := do
  let u32 ← parseBinaryUint24 d
  let u32 := if u32 &&& 0x00800000 ≠ 0 then u32 ||| 0xFF000000 else u32
  return toSigned 32 u32
/-- utils.go:371-374 `ParseBinaryInt32` -/
def parseBinaryInt32 (d : Bytes) : Option Int := do return toSigned 32 (← le32 d)
/-- utils.go:376-379 `ParseBinaryUint32` -/
def parseBinaryUint32 (d : Bytes) : Option Nat := le32 d
/-- utils.go:381-384 `ParseBinaryInt64` -/
def parseBinaryInt64 (d : Bytes) : Option Int := do return toI64 (← le64 d)
/-- utils.go:386-389 `ParseBinaryUint64` -/
def parseBinaryUint64 (d : Bytes) : Option Nat := le64 d

/-- utils.go:978-985 `FixedLengthInt`: the loop `num |= uint64(b) << (i*8)` from index `i` on.  In Go a shift by
64 or more yields 0, which is what truncating to 64 bits gives. -/
def fixedLengthIntAux : Nat → Bytes → Nat → Nat
  | _, [], num => num
  | i, b :: bs, num => fixedLengthIntAux (i + 1) bs (num ||| u64 (b.toNat <<< (i * 8)))

/-- utils.go:978-985 `FixedLengthInt` -/
def fixedLengthInt (buf : Bytes) : Nat := fixedLengthIntAux 0 buf 0

/-! ## Dates and times -/

/-- utils.go:741-785 `GetTimeFormat` -/
def getTimeFormat (data : Bytes) : Option Nat := do
  let d ← matchReadFrom8 data
  let r := andNot64 d (1 <<< 63)
  let sec := r % 100
  let r := r / 100
  let min := r % 100
  let r := r / 100
  let hour := r % 100
  let r := r / 100
  let day := r % 100
  let r := r / 100
  let month := r % 100
  let year := d % 10000
  if year > 1990 ∧ year < 2100 ∧ month ≥ 1 ∧ month ≤ 12 ∧ day ≥ 1 ∧ day ≤ 31 ∧ hour ≤ 23 ∧ min ≤ 59 ∧ sec ≤ 59 then
    return 1
  let sign := d >>> 63
  if sign = 0 then
    return 0
  let yd := (d &&& 0x7FFFC00000000000) >>> 46
  let year := yd / 13
  let month := yd - year * 13
  let day := (d &&& 0x00003E0000000000) >>> 41
  let hour := (d &&& 0x000001F000000000) >>> 36
  let min := (d &&& 0x0000000FC0000000) >>> 30
  let sec := (d &&& 0x000000003F000000) >>> 24
  if year > 1990 ∧ year < 2100 ∧ month ≥ 1 ∧ month ≤ 12 ∧ day ≥ 1 ∧ day ≤ 31 ∧ hour ≤ 23 ∧ min ≤ 59 ∧ sec ≤ 59 then
    return 2
  return 0

/-- `fmt.Sprintf("%02d-%02d-%02d %02d:%02d:%02d", ...)` -/
def fmtDateTime (year month day hour min sec : Nat) : Bytes :=
  dec2 year ++ b! "-" ++ dec2 month ++ b! "-" ++ dec2 day ++ b! " " ++
  dec2 hour ++ b! ":" ++ dec2 min ++ b! ":" ++ dec2 sec

/-- utils.go:787-826 `ParseDateTime` -/
def parseDateTime (data : Bytes) : Option Bytes := do
  let format ← getTimeFormat data
  if format = 1 ∨ format = 0 then
    let ldate ← matchReadFrom8 data
    let ldate := andNot64 ldate (1 <<< 63)
    let sec := ldate % 100
    let ldate := ldate / 100
    let min := ldate % 100
    let ldate := ldate / 100
    let hour := ldate % 100
    let ldate := ldate / 100
    let day := ldate % 100
    let ldate := ldate / 100
    let month := ldate % 100
    let ldate := ldate / 100
    let year := ldate % 10000
    return fmtDateTime year month day hour min sec
  else if format = 2 then
    let ldate ← matchReadFrom8 data
    let yd := (ldate &&& 0x7FFFC00000000000) >>> 46
    let year := yd / 13
    let month := yd - year * 13
    let day := (ldate &&& 0x00003E0000000000) >>> 41
    let hour := (ldate &&& 0x000001F000000000) >>> 36
    let min := (ldate &&& 0x0000000FC0000000) >>> 30
    let sec := (ldate &&& 0x000000003F000000) >>> 24
    return fmtDateTime year month day hour min sec
  else
    return []

/-- utils.go:828-841 `ParseDate` -/
def parseDate (data : Bytes) : Option Bytes := do
  let ldate ← matchReadFrom3 data
  let ldate := andNot64 ldate (1 <<< 23)
  let day := ldate % 32
  let ldate := ldate / 32
  let month := ldate % 16
  let ldate := ldate / 16
  let year := ldate
  return dec2 year ++ b! "-" ++ dec2 month ++ b! "-" ++ dec2 day

/-- utils.go:843-879 `ParseTime`, the `case "5.6"` branch (`MySQLVersion` is the constant "5.6", const.go:106,
so the default branch is dead code and not modelled). -/
def parseTime (data : Bytes) : Option Bytes := do
  let ltime : Int := (← matchReadFrom3 data : Nat)
  let ltime := ltime - 0x800000
  let isNegative := ltime < 0
  let ltime := ltime.natAbs
  let hour := (ltime &&& 0x3FF000) >>> 12
  let min := (ltime &&& 0xFC0) >>> 6
  let sec := ltime &&& 0x3F
  let formatTime := dec2 hour ++ b! ":" ++ dec2 min ++ b! ":" ++ dec2 sec
  return if isNegative then b! "-" ++ formatTime else formatTime

/-- Gregorian leap year -/
def isLeap (y : Nat) : Bool := (y % 4 == 0 && y % 100 != 0) || y % 400 == 0

def yearDays (y : Nat) : Nat := if isLeap y then 366 else 365

def monthDays (y m : Nat) : Nat :=
  if m = 2 then (if isLeap y then 29 else 28) else if m = 4 ∨ m = 6 ∨ m = 9 ∨ m = 11 then 30 else 31

/-- Split a day number counted from January 1st of `year` into year and day of year. -/
def splitYear : Nat → Nat → Nat → Nat × Nat
  | 0, year, days => (year, days)
  | fuel + 1, year, days =>
    if days < yearDays year then (year, days) else splitYear fuel (year + 1) (days - yearDays year)

/-- Split a day of the year (counted from the 1st of `month`) into month and day of month (from 0). -/
def splitMonth (year : Nat) : Nat → Nat → Nat → Nat × Nat
  | 0, month, days => (month, days)
  | fuel + 1, month, days =>
    if days < monthDays year month then (month, days) else splitMonth year fuel (month + 1) (days - monthDays year month)

/-- Zero-padded four-digit year as `time.Format` prints `2006` -/
def dec4 (n : Nat) : Bytes :=
  if n < 10 then b! "000" ++ dec n else if n < 100 then b! "00" ++ dec n else if n < 1000 then b! "0" ++ dec n else dec n

/-- utils.go:881-887 `ParseTimeStamp`: `time.Unix(int64(t), 0).Format("2006-01-02 03:04:05")`.
The process time zone is a parameter: `zone t` is its offset from UTC in seconds at instant `t`.
Go's calendar arithmetic (library code) is replaced by counting years and months from 1900-01-01, 25567 days
before the epoch.  The layout's `03` is the 12-hour clock. -/
def parseTimeStamp (zone : Nat → Int) (data : Bytes) : Option Bytes := do
  let t ← matchReadFrom4 data
  let secs : Nat := ((t : Int) + zone t + 25567 * 86400).toNat
  let days := secs / 86400
  let sod := secs % 86400
  let (year, yday) := splitYear days 1900 days
  let (month, mday) := splitMonth year 11 1 yday
  let hour := sod / 3600
  let hr := hour % 12
  let hr := if hr = 0 then 12 else hr
  let min := sod % 3600 / 60
  let sec := sod % 60
  return dec4 year ++ b! "-" ++ dec2 month ++ b! "-" ++ dec2 (mday + 1) ++ b! " " ++
    dec2 hr ++ b! ":" ++ dec2 min ++ b! ":" ++ dec2 sec

/-! ## Floats, blobs -/

/-- utils.go:889-894 `ParseFloat`; the result is the bit pattern of the `float32`. -/
def parseFloat (data : Bytes) : Option Nat := do le32 (← sliceTo data 4)

/-- utils.go:896-901 `ParseDouble` -/
def parseDouble (data : Bytes) : Option Nat := do le64 (← sliceTo data 8)

/-- utils.go:391-394 `ParseBinaryFloat32` -/
def parseBinaryFloat32 (data : Bytes) : Option Nat := le32 data

/-- utils.go:396-399 `ParseBinaryFloat64` -/
def parseBinaryFloat64 (data : Bytes) : Option Nat := le64 data

/-- the hex digit table of `encoding/hex` -/
def hexDigit (n : Nat) : UInt8 := if n < 10 then UInt8.ofNat (48 + n) else UInt8.ofNat (87 + n)

/-- utils.go:903-909 `ParseBlob` -/
def parseBlob (data : Bytes) : Bytes :=
  data.flatMap fun b => [hexDigit (b.toNat >>> 4), hexDigit (b.toNat &&& 0x0F)]

/-! ## Escaping -/

/-- The `switch c` of `EscapeValue`, utils.go:918-935. -/
def escRune (c : Nat) : Option Bytes :=
  if c = 0 then some (b! "\\0")
  else if c = 10 then some (b! "\\n")
  else if c = 13 then some (b! "\\r")
  else if c = 92 then some (b! "\\\\")
  else if c = 39 then some (b! "\\'")
  else if c = 34 then some (b! "\\\"")
  else if c = 26 then some (b! "\\Z")
  else none

/-- The loop of `EscapeValue`, utils.go:917-939.  `s` is the whole string, `i` the current byte index,
`last` the index up to which the string has been copied, `buf` the buffer.  `fuel` bounds the number of runes
(every rune is at least one byte wide, so `len(s)` suffices). -/
def escLoop (s : Bytes) : Nat → Nat → Nat → Bytes → Nat × Bytes
  | 0, _, last, buf => (last, buf)
  | fuel + 1, i, last, buf =>
    if i < s.length then
      let cw := decodeRune (s.drop i)
      match escRune cw.1 with
      | none => escLoop s fuel (i + cw.2) last buf
      | some esc => escLoop s fuel (i + cw.2) (i + 1) (buf ++ ((s.take i).drop last) ++ esc)
    else (last, buf)

/-- utils.go:911-947 `EscapeValue` -/
def escapeValue (s : Bytes) : Bytes :=
  let (last, buf) := escLoop s s.length 0 0 []
  let buf := buf ++ s.drop last
  if buf = b! "0001-01-01T00:00:00Z" then [] else buf

/-! ## Column lengths -/

/-- utils.go:700-732 `GetFixedLength` -/
def getFixedLength (dataType fieldLen : Nat) : Nat :=
  if dataType = DATA_BLOB then 0
  else if dataType = DATA_VARMYSQL then 0
  else if dataType = DATA_MYSQL then 0
  else if dataType = DATA_BINARY then fieldLen
  else fieldLen

/-- utils.go:658-698 `GetFixedLengthByMySQLType` (not called anywhere in the code base) -/
def getFixedLengthByMySQLType (mySQLType fieldLen : Nat) : Nat :=
  if mySQLType = MYSQL_TYPE_LONG then 0
  else if mySQLType = MYSQL_TYPE_DATETIME then 0
  else if mySQLType = MYSQL_TYPE_VARCHAR then 0
  else if mySQLType = MYSQL_TYPE_TINY_BLOB ∨ mySQLType = MYSQL_TYPE_MEDIUM_BLOB ∨
      mySQLType = MYSQL_TYPE_LONG_BLOB ∨ mySQLType = MYSQL_TYPE_BLOB then 0
  else fieldLen

/-! ## Column values -/

/-- Settings of the process and library behaviour that influence decoding and printing: the time zone
(`zone t` is the offset from UTC in seconds at instant `t`) and how floating point numbers are printed. -/
structure Env where
  zone : Nat → Int
  ff : FloatFmt

/-- utils.go:574-656 `ParseData`.  Returns the value and the new `*IsBinary`; the error result is always `nil`
and is not modelled.  Prints a line for `MYSQL_TYPE_NEWDECIMAL` (utils.go:601). -/
def parseData (env : Env) (dataType mySQLType : Nat) (data : Bytes) (fieldLen fixLength : Nat)
    (isUnsigned isBinary : Bool) : GoM Out (Val × Bool) :=
  let strv : GoM Out (Val × Bool) := do return (.str (← GoM.lift (sliceTo data fieldLen)), isBinary)
  let hexv : GoM Out (Val × Bool) := do return (.str (parseBlob (← GoM.lift (sliceTo data fieldLen))), true)
  let uintv : GoM Out (Val × Bool) := do
    return (.uint (← GoM.lift (getUintValue fixLength (← GoM.lift (sliceTo data fieldLen)))), isBinary)
  if dataType = DATA_VARCHAR then strv
  else if dataType = DATA_CHAR then strv
  else if dataType = DATA_FIXBINARY then
    if mySQLType = MYSQL_TYPE_TIME then do return (.str (← GoM.lift (parseTime data)), isBinary)
    else if mySQLType = MYSQL_TYPE_TIMESTAMP then do
      return (.str (← GoM.lift (parseTimeStamp env.zone data)), isBinary)
    else if mySQLType = MYSQL_TYPE_DATETIME then do return (.str (← GoM.lift (parseDateTime data)), isBinary)
    else if mySQLType = MYSQL_TYPE_BIT then uintv
    else if mySQLType = MYSQL_TYPE_NEWDECIMAL then do
      println (b! "test MYSQL_TYPE_NEWDECIMAL")
      strv
    else if mySQLType = MYSQL_TYPE_STRING then hexv
    else strv
  else if dataType = DATA_BINARY then
    if mySQLType = MYSQL_TYPE_VARCHAR then hexv
    else if fixLength ≠ 0 then uintv
    else strv
  else if dataType = DATA_INT then
    if mySQLType = MYSQL_TYPE_DATE then do return (.str (← GoM.lift (parseDate data)), isBinary)
    else if mySQLType = MYSQL_TYPE_YEAR then do return (.uint ((← GoM.lift (matchReadFrom1 data)) + 1900), isBinary)
    else if isUnsigned then uintv
    else do return (← GoM.lift (getIntValue fixLength (← GoM.lift (sliceTo data fieldLen))), isBinary)
  else if dataType = DATA_FLOAT then do return (.f32 (← GoM.lift (parseFloat data)), isBinary)
  else if dataType = DATA_DOUBLE then do return (.f64 (← GoM.lift (parseDouble data)), isBinary)
  else if dataType = DATA_DECIMAL then pure (.nil, isBinary)
  else if dataType = DATA_VARMYSQL then strv
  else if dataType = DATA_MYSQL then do
    return (.str (trimSpace (← GoM.lift (sliceTo data fieldLen))), isBinary)
  else if dataType = DATA_BLOB then
    if isBinary then hexv else strv
  else pure (.nil, isBinary)

/-! ## Redo log helpers -/

def errIndexTooShort : Bytes := b! "data is to short"
def errInsertTooShort : Bytes := b! "data is too short"

/-- utils.go:512-517: the loop of `ParseIndex` that skips `n` column lengths. -/
def parseIndexLoop (data : Bytes) : Nat → Nat → Option Nat
  | 0, pos => some pos
  | n + 1, pos => do
    let _ ← read2 data pos
    parseIndexLoop data n (pos + 2)

/-- utils.go:489-521 `ParseIndex`: new position and error -/
def parseIndex (comp : Bool) (data : Bytes) (pos : Nat) : Option (Nat × Option Bytes) :=
  if comp then
    if data.length < pos + 4 then some (0, some errIndexTooShort)
    else do
      let n ← read2 data pos
      let pos := pos + 2
      let _uniq ← read2 data pos
      let pos := pos + 2
      if data.length < pos + n * 2 then return (0, some errIndexTooShort)
      let pos ← parseIndexLoop data n pos
      return (pos, none)
  else some (pos, none)

/-- `if err != nil { fmt.Println(err.Error()) }` -/
def printErr (e : Option Bytes) : GoM Out Unit :=
  match e with
  | some m => println m
  | none => pure ()

/-- utils.go:525-529: the offset of the record, absent in the short form -/
def insertOffset (isShort : Bool) (data : Bytes) (pos : Nat) : GoM Out Nat :=
  if isShort then pure pos
  else do
    let _offset ← GoM.lift (read2 data pos)
    return pos + 2

/-- utils.go:547-565: info bits, origin offset and mismatch index, present when the lowest bit of the length is set -/
def insertExtra (data : Bytes) (pos val : Nat) : GoM Out Nat :=
  if val &&& 1 ≠ 0 then do
    let _infoBits ← GoM.lift (read1 data pos)
    let o ← GoM.lift (matchParseCompressed data (pos + 1))
    printErr o.err
    let m ← GoM.lift (matchParseCompressed data (pos + 1 + o.num))
    printErr m.err
    return pos + 1 + o.num + m.num
  else pure pos

/-- utils.go:523-572 `ParseInsertRecord`: new position and error -/
def parseInsertRecord (isShort : Bool) (data : Bytes) (pos : Nat) : GoM Out (Nat × Option Bytes) := do
  let pos ← insertOffset isShort data pos
  let pc ← GoM.lift (matchParseCompressed data pos)
  match pc.err with
  | some e => return (0, some e)
  | none =>
    if pos + pc.num > data.length then return (0, some errInsertTooShort)
    else
      let pos ← insertExtra data (pos + pc.num) pc.val
      return (pos + pc.val >>> 1, none)

end Verif
