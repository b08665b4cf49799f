import Verif.Spec.Record
import Verif.Model.Ibdata
/-!
# Specification: column types of the InnoDB dictionary and how they are stored

From data0type.h / dtype_get_fixed_size_low: the main type and length recorded in SYS_COLUMNS, and the storage of the
column in COMPACT records.
-/

namespace Verif.Spec

inductive Kind where
  /-- integers, DATE, YEAR, ENUM, SET: DATA_INT -/
  | int (w : Nat)
  /-- BINARY(n), BIT, TIME, DATETIME, TIMESTAMP, NEWDECIMAL: DATA_FIXBINARY -/
  | fixBinary (n : Nat)
  | float
  | double
  /-- CHAR(n) CHARACTER SET latin1: DATA_CHAR -/
  | charLatin1 (n : Nat)
  /-- VARCHAR CHARACTER SET latin1 of at most `max` bytes: DATA_VARCHAR -/
  | varcharLatin1 (max : Nat)
  /-- VARCHAR in another character set: DATA_VARMYSQL -/
  | varchar (max : Nat)
  /-- CHAR in a multi-byte character set (stored with variable length): DATA_MYSQL -/
  | charMulti (max : Nat)
  /-- CHAR in a single-byte character set other than latin1 (stored with fixed length): DATA_MYSQL -/
  | charSingle (n : Nat)
  /-- VARBINARY: DATA_BINARY -/
  | varbinary (max : Nat)
  /-- TEXT and BLOB types: DATA_BLOB -/
  | blob
  /-- DB_ROW_ID, DB_TRX_ID (6 bytes), DB_ROLL_PTR (7 bytes); the tool gives them main type 0 -/
  | system (n : Nat)
deriving Repr, DecidableEq

/-- MTYPE of SYS_COLUMNS -/
def Kind.mainType : Kind → Nat
  | .varcharLatin1 _ => 1
  | .charLatin1 _ => 2
  | .fixBinary _ => 3
  | .varbinary _ => 4
  | .blob => 5
  | .int _ => 6
  | .float => 9
  | .double => 10
  | .varchar _ => 12
  | .charMulti _ => 13
  | .charSingle _ => 13
  | .system _ => 0

/-- LEN of SYS_COLUMNS -/
def Kind.declLen : Kind → Nat
  | .varcharLatin1 m | .varbinary m | .varchar m | .charMulti m => m
  | .charLatin1 n | .fixBinary n | .charSingle n | .int n | .system n => n
  | .blob => 10
  | .float => 4
  | .double => 8

def Kind.storage : Kind → Storage
  | .varcharLatin1 m | .varbinary m | .varchar m | .charMulti m => .var (m > 255)
  | .charLatin1 n | .fixBinary n | .charSingle n | .int n | .system n => .fixed n
  | .blob => .var true
  | .float => .fixed 4
  | .double => .fixed 8

/-- The definition of a column: its type and whether it is nullable. -/
structure ColDef where
  kind : Kind
  nullable : Bool
deriving Repr, DecidableEq

def ColDef.scol (c : ColDef) : SCol := ⟨c.nullable, c.kind.storage⟩

/-- The entry `c` of the tool's dictionary describes a column defined as `k`.  (The tool stores length 0 for
DATA_BINARY, parse.go:447-451.) -/
def Describes (c : Column) (k : ColDef) : Prop :=
  c.isNull = k.nullable ∧ c.ftype = k.kind.mainType ∧ c.len = if k.kind.mainType = 4 then 0 else k.kind.declLen

instance (c : Column) (k : ColDef) : Decidable (Describes c k) := inferInstanceAs (Decidable (_ ∧ _))

/-- The types whose storage the tool reads correctly. -/
def Kind.Readable : Kind → Prop
  | .varcharLatin1 m => m = 0
  | .charSingle _ => False
  | .varbinary m => m ≤ 255
  | .charLatin1 n | .fixBinary n | .int n | .system n => n ≠ 0
  | _ => True

instance (k : Kind) : Decidable k.Readable := by
  cases k <;> (dsimp only [Kind.Readable]; infer_instance)

/-! ## Decoding column by column

The value decoder (`parseData`, see C06–C17) applied to the bytes of each column on its own. -/

/-- One column, given its cell and the bytes that follow it on the page (which the date decoders look at). -/
def decodeCell (env : Env) (c : Column) (x : Cell) (rest : Bytes) : GoM Out Column :=
  match x with
  | .null => pure { c with value := .str (b! "NULL") }
  | x => do
    let (v, isBinary) ← parseData env c.ftype c.mtype (x.bytes ++ rest) x.bytes.length (getFixedLength c.ftype c.len)
      c.isUnsigned c.isBinary
    return { c with value := v, isBinary := isBinary }

/-- All columns of a row, one by one; `post` is what follows the record on the page. -/
def decodeRow (env : Env) : List Column → Row → Bytes → GoM Out (List Column)
  | c :: cs, x :: xs, post => do
    let c' ← decodeCell env c x.2 (rowData xs ++ post)
    let cs' ← decodeRow env cs xs post
    return c' :: cs'
  | _, _, _ => pure []

/-- Outcome of decoding a row, as seen by the page walk: the row is returned and stays in the shared column slice. -/
def rowResult (s : PState) : R Out (List Column) → R PState (Option (List Column))
  | .ok cs out => .ok (some cs) ⟨cs, out⟩
  | .panic out => .panic { s with out := out }
  | .hang out => .hang { s with out := out }

end Verif.Spec
