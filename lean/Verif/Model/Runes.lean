import Verif.Go
/-!
# Go's UTF-8 iteration and `strings.TrimSpace`

Library behaviour that `recovery/utils/utils.go` relies on: `for i, c := range s` (used by `EscapeValue`,
utils.go:917) and `strings.TrimSpace` (used by `ParseData`, utils.go:645).
-/

namespace Verif

/-- continuation byte `80..BF` -/
def isCont (b : UInt8) : Bool := 0x80 ≤ b && b ≤ 0xBF

def runeError : Nat := 0xFFFD

/-- `utf8.DecodeRuneInString`: rune and width of the first rune of `s`.  Invalid encodings give
`(RuneError, 1)`.  This is also what `range` over a string does (utils.go:917). -/
def decodeRune (s : Bytes) : Nat × Nat :=
  match s with
  | [] => (runeError, 0)
  | b0 :: t =>
    if b0 < 0x80 then (b0.toNat, 1)
    else if 0xC2 ≤ b0 ∧ b0 ≤ 0xDF then
      match t with
      | b1 :: _ =>
        if isCont b1 then ((b0.toNat &&& 0x1F) <<< 6 ||| (b1.toNat &&& 0x3F), 2) else (runeError, 1)
      | _ => (runeError, 1)
    else if 0xE0 ≤ b0 ∧ b0 ≤ 0xEF then
      match t with
      | b1 :: b2 :: _ =>
        let lo : UInt8 := if b0 = 0xE0 then 0xA0 else 0x80
        let hi : UInt8 := if b0 = 0xED then 0x9F else 0xBF
        if lo ≤ b1 ∧ b1 ≤ hi ∧ isCont b2 then
          ((b0.toNat &&& 0x0F) <<< 12 ||| (b1.toNat &&& 0x3F) <<< 6 ||| (b2.toNat &&& 0x3F), 3)
        else (runeError, 1)
      | _ => (runeError, 1)
    else if 0xF0 ≤ b0 ∧ b0 ≤ 0xF4 then
      match t with
      | b1 :: b2 :: b3 :: _ =>
        let lo : UInt8 := if b0 = 0xF0 then 0x90 else 0x80
        let hi : UInt8 := if b0 = 0xF4 then 0x8F else 0xBF
        if lo ≤ b1 ∧ b1 ≤ hi ∧ isCont b2 ∧ isCont b3 then
          ((b0.toNat &&& 0x07) <<< 18 ||| (b1.toNat &&& 0x3F) <<< 12 ||| (b2.toNat &&& 0x3F) <<< 6
            ||| (b3.toNat &&& 0x3F), 4)
        else (runeError, 1)
      | _ => (runeError, 1)
    else (runeError, 1)

/-- `unicode.IsSpace` -/
def isSpaceRune (r : Nat) : Bool :=
  r == 0x20 || (0x09 ≤ r && r ≤ 0x0D) || r == 0x85 || r == 0xA0 || r == 0x1680 ||
  (0x2000 ≤ r && r ≤ 0x200A) || r == 0x2028 || r == 0x2029 || r == 0x202F || r == 0x205F || r == 0x3000

/-- `utf8.RuneStart` -/
def runeStart (b : UInt8) : Bool := !(isCont b)

/-- `utf8.DecodeLastRuneInString`: rune and width of the last rune of `s`. -/
def decodeLastRune (s : Bytes) : Nat × Nat :=
  match s.getLast? with
  | none => (runeError, 0)
  | some b =>
    if b < 0x80 then (b.toNat, 1)
    else
      -- look back at most four bytes for the start of the rune
      match [2, 3, 4].find? (fun k => k ≤ s.length && (s[s.length - k]?.any runeStart)) with
      | some k =>
        let rw := decodeRune (s.drop (s.length - k))
        if rw.2 = k then rw else (runeError, 1)
      | none => (runeError, 1)

/-- `strings.TrimLeftFunc(s, unicode.IsSpace)`; `fuel` bounds the number of runes. -/
def trimLeftAux : Nat → Bytes → Bytes
  | 0, s => s
  | fuel + 1, s =>
    match s with
    | [] => []
    | _ => let rw := decodeRune s
           if isSpaceRune rw.1 then trimLeftAux fuel (s.drop rw.2) else s

/-- `strings.TrimRightFunc(s, unicode.IsSpace)` -/
def trimRightAux : Nat → Bytes → Bytes
  | 0, s => s
  | fuel + 1, s =>
    match s with
    | [] => []
    | _ => let rw := decodeLastRune s
           if isSpaceRune rw.1 then trimRightAux fuel (s.take (s.length - rw.2)) else s

/-- `strings.TrimSpace`.  The library's ASCII fast path computes the same function and is not modelled. -/
def trimSpace (s : Bytes) : Bytes :=
  let t := trimLeftAux s.length s
  trimRightAux t.length t

/-- `strings.ToLower` on ASCII letters (sufficient for the ASCII keys of `LevelMap`, logs.go:48).
Non-ASCII letters are left unchanged; Go would lower them, and two runes map onto ASCII letters there: U+212A KELVIN
SIGN to `k`, which occurs in no key of the map, and U+0130 to `i`, which occurs only in `info`, whose level is also the
default.  So the level is the same. -/
def toLowerAscii (s : Bytes) : Bytes :=
  s.map fun b => if 65 ≤ b ∧ b ≤ 90 then b + 32 else b

end Verif
