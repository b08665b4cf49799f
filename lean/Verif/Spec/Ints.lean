import Verif.Go
/-!
# Specification: integer encodings

Written from the InnoDB documentation (mach0data.h / mach0data.ic), independently of the model.
-/

namespace Verif.Spec

/-- The number denoted by a big-endian byte string. -/
def beVal (b : Bytes) : Nat := b.foldl (fun a x => a * 256 + x.toNat) 0

/-- Big-endian encoding of `n` in `w` bytes (`mach_write_to_w`). -/
def beEnc : Nat → Nat → Bytes
  | 0, _ => []
  | w + 1, n => UInt8.ofNat (n / 256 ^ w % 256) :: beEnc w n

/-- The number denoted by a little-endian byte string. -/
def leVal : Bytes → Nat
  | [] => 0
  | b :: bs => b.toNat + 256 * leVal bs

/-- Little-endian encoding of `n` in `w` bytes. -/
def leEnc : Nat → Nat → Bytes
  | 0, _ => []
  | w + 1, n => UInt8.ofNat (n % 256) :: leEnc w (n / 256)

/-- `mach_write_compressed`: the canonical variable-length encoding of a 32-bit number. -/
def compEnc (n : Nat) : Bytes :=
  if n < 0x80 then beEnc 1 n
  else if n < 0x4000 then beEnc 2 (0x8000 + n)
  else if n < 0x200000 then beEnc 3 (0xC00000 + n)
  else if n < 0x10000000 then beEnc 4 (0xE0000000 + n)
  else 0xF0 :: beEnc 4 n

/-- `mach_u64_write_compressed`: compressed high word, four-byte low word. -/
def ullCompEnc (n : Nat) : Bytes := compEnc (n / 2 ^ 32) ++ beEnc 4 (n % 2 ^ 32)

/-- `mach_u64_write_much_compressed`: compressed if below 2^32, otherwise 0xFF and both words compressed. -/
def ullMuchEnc (n : Nat) : Bytes :=
  if n < 2 ^ 32 then compEnc n else 0xFF :: (compEnc (n / 2 ^ 32) ++ compEnc (n % 2 ^ 32))

/-- How InnoDB stores a signed integer of `w` bytes: big-endian two's complement with the sign bit inverted. -/
def intEnc (w : Nat) (i : Int) : Bytes := beEnc w (i + 2 ^ (8 * w - 1)).toNat

end Verif.Spec
