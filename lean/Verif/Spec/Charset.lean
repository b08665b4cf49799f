import Verif.Go
/-!
# Character sets

What the bytes of a string mean.  Covered are UTF-8 and the character sets with one byte for each character that contain ASCII (latin1, latin2, cp1251,
koi8r and so on).  A code is a number of Unicode.
-/

namespace Verif.Spec
open Verif

inductive Charset where
  | utf8mb4
  /-- a character set with one byte for each character: the character of each byte -/
  | single (code : UInt8 → Nat)

/-- ASCII is part of the set, and no character has two codes. -/
def Charset.Fine : Charset → Prop
  | .utf8mb4 => True
  | .single code => (∀ b : UInt8, b < 128 → code b = b.toNat) ∧ ∀ b b', code b = code b' → b = b'

/-- the encoding of a character in UTF-8 -/
def utf8Of (c : Nat) : Bytes :=
  if c < 0x80 then [UInt8.ofNat c]
  else if c < 0x800 then [UInt8.ofNat (0xC0 + c / 64), UInt8.ofNat (0x80 + c % 64)]
  else if c < 0x10000 then [UInt8.ofNat (0xE0 + c / 4096), UInt8.ofNat (0x80 + c / 64 % 64), UInt8.ofNat (0x80 + c % 64)]
  else [UInt8.ofNat (0xF0 + c / 262144), UInt8.ofNat (0x80 + c / 4096 % 64), UInt8.ofNat (0x80 + c / 64 % 64), UInt8.ofNat (0x80 + c % 64)]

/-- The bytes `s` are the text `chars` in a character set. -/
def Charset.Spells (chars : List Nat) (s : Bytes) : Charset → Prop
  | .utf8mb4 => (∀ c ∈ chars, c < 0x110000 ∧ ¬ (0xD800 ≤ c ∧ c < 0xE000)) ∧ s = chars.flatMap utf8Of
  | .single code => chars = s.map code

/-- A session that sends the bytes `x` of a string in its own character set stores the bytes `s` in a column of another one. -/
def Converts (session column : Charset) (x s : Bytes) : Prop := ∃ chars, session.Spells chars x ∧ column.Spells chars s

/-- ISO 8859-1, which MySQL calls latin1 (apart from the bytes 128 to 159) -/
def iso8859_1 : Charset := .single fun b => b.toNat

theorem iso8859_1_fine : iso8859_1.Fine := ⟨fun _ _ => rfl, fun _ _ h => UInt8.toNat_inj.mp h⟩

/-- "né" in both -/
example : Charset.utf8mb4.Spells [110, 233] [110, 0xC3, 0xA9] ∧ iso8859_1.Spells [110, 233] [110, 0xE9] :=
  ⟨⟨by decide, by decide⟩, by unfold iso8859_1 Charset.Spells; decide⟩
example : utf8Of 0x20AC = [0xE2, 0x82, 0xAC] ∧ utf8Of 0x1F600 = [0xF0, 0x9F, 0x98, 0x80] := by decide

end Verif.Spec
