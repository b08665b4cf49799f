import Verif.Spec.Ints
/-!
# Specification: physical records

Written from the InnoDB documentation (rem0rec.cc).
-/

namespace Verif.Spec

/-- How a column is stored: with a fixed number of bytes, or with its length recorded in the record header.  `two` says
whether the length may take two bytes (maximum length above 255 bytes, or a BLOB). -/
inductive Storage where
  | fixed (n : Nat)
  | var (two : Bool)
deriving Repr, DecidableEq

structure SCol where
  nullable : Bool
  storage : Storage
deriving Repr, DecidableEq

/-- The contents of a column of a record: NULL, a value, or the local part of a value that continues on overflow pages
(the last 20 bytes of the local part are the reference to them). -/
inductive Cell where
  | null
  | val (v : Bytes)
  | ext (v : Bytes)
deriving Repr, DecidableEq

def Cell.bytes : Cell → Bytes
  | .null => []
  | .val v => v
  | .ext v => v

abbrev Row := List (SCol × Cell)

/-- The cell can be stored in the column. -/
def Fits (c : SCol) : Cell → Prop
  | .null => c.nullable = true
  | .val v => match c.storage with
    | .fixed n => v.length = n
    | .var two => v.length < if two then 2 ^ 14 else 2 ^ 8
  | .ext v => c.storage = .var true ∧ v.length < 2 ^ 14

instance (c : SCol) (x : Cell) : Decidable (Fits c x) := by
  unfold Fits
  split
  · exact inferInstance
  · split <;> exact inferInstance
  · exact inferInstance

/-- Two lists of the same length whose elements are pairwise related. -/
inductive All2 {α β : Type} (R : α → β → Prop) : List α → List β → Prop where
  | nil : All2 R [] []
  | cons {a b l m} : R a b → All2 R l m → All2 R (a :: l) (b :: m)

instance All2.dec {α β : Type} (R : α → β → Prop) [∀ a b, Decidable (R a b)] : ∀ l m, Decidable (All2 R l m)
  | [], [] => isTrue .nil
  | [], _ :: _ => isFalse (by intro h; cases h)
  | _ :: _, [] => isFalse (by intro h; cases h)
  | a :: l, b :: m =>
    match (inferInstance : Decidable (R a b)), All2.dec R l m with
    | isTrue h1, isTrue h2 => isTrue (.cons h1 h2)
    | isFalse h1, _ => isFalse (by intro h; cases h; contradiction)
    | _, isFalse h2 => isFalse (by intro h; cases h; contradiction)

/-! ## COMPACT records -/

/-- The length bytes of a column, in the order in which they are read (towards lower addresses). -/
def lenBytes (c : SCol) (x : Cell) : Bytes :=
  match c.storage, x with
  | .fixed _, _ => []
  | .var _, .null => []
  | .var two, .val v =>
    if two = true ∧ 128 ≤ v.length then [UInt8.ofNat (0x80 + v.length / 256), UInt8.ofNat (v.length % 256)]
    else [UInt8.ofNat v.length]
  | .var _, .ext v => [UInt8.ofNat (0xC0 + v.length / 256), UInt8.ofNat (v.length % 256)]

def lens (row : Row) : Bytes := row.flatMap fun e => lenBytes e.1 e.2

/-- one bit per nullable column, set for NULL -/
def nullBits (row : Row) : List Bool := (row.filter fun e => e.1.nullable).map fun e => e.2 == .null

/-- number with the given binary digits, least significant first -/
def bitsVal : List Bool → Nat
  | [] => 0
  | b :: bs => b.toNat + 2 * bitsVal bs

/-- bits packed into bytes, eight per byte, least significant first -/
def packBits (l : List Bool) : Bytes :=
  (List.range ((l.length + 7) / 8)).map fun j => UInt8.ofNat (bitsVal ((l.drop (8 * j)).take 8))

def rowData (row : Row) : Bytes := row.flatMap fun e => e.2.bytes

/-- what precedes the origin of a COMPACT record: the lengths, the NULL bitmap (both towards lower addresses) and the
five header bytes -/
def compactPrefix (row : Row) (hdr : Bytes) : Bytes := (lens row).reverse ++ (packBits (nullBits row)).reverse ++ hdr

/-- The record `row` is stored at offset `o` of the page `d` in COMPACT format. -/
def CompactAt (d : Bytes) (o : Nat) (row : Row) : Prop :=
  ∃ pre hdr post : Bytes, pre ≠ [] ∧ hdr.length = 5 ∧
    d = pre ++ compactPrefix row hdr ++ rowData row ++ post ∧
    o = (pre ++ compactPrefix row hdr).length

/-! ## REDUNDANT records -/

/-- A column of a REDUNDANT record: its bytes (for a NULL of a fixed-length column, the bytes reserved for it) and
whether it is NULL. -/
structure OldCell where
  bytes : Bytes
  null : Bool
deriving Repr, DecidableEq

def oldData (row : List OldCell) : Bytes := row.flatMap (·.bytes)

/-- The field end information, in the order of the columns: end offset, top bit set for NULL.  `w` is its width. -/
def endInfos (w : Nat) : Nat → List OldCell → Bytes
  | _, [] => []
  | start, c :: cs =>
    let e := start + c.bytes.length
    endInfos w e cs ++ beEnc w (e + if c.null then 2 ^ (8 * w - 1) else 0)

/-- The record `row` is stored at offset `o` of the page `d` in REDUNDANT format with `w`-byte end offsets (`w` is 1
or 2).  The third byte before the origin carries the flag for one-byte offsets in its lowest bit. -/
def RedundantAt (d : Bytes) (o w : Nat) (row : List OldCell) : Prop :=
  ∃ pre h3 flag h2 post, h3.length = 3 ∧ h2.length = 2 ∧ flag.toNat % 2 = (if w = 1 then 1 else 0) ∧
    d = pre ++ endInfos w 0 row ++ h3 ++ [flag] ++ h2 ++ oldData row ++ post ∧
    o = (pre ++ endInfos w 0 row ++ h3 ++ [flag] ++ h2).length

end Verif.Spec
