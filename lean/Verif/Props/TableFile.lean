import Verif.Proofs.Typed
import Verif.Props.Files
import Verif.Props.Replace
import Verif.Props.DictLoad
/-!
# C57: what a data file holds

The rows of a table, as the records of the leaf pages of its clustered index store them.
-/

namespace Verif.Props
open Verif Spec

/-- the stored form of a value; `none` is NULL -/
def cellOfVal : Option TVal → Cell
  | none => .null
  | some v => .val v.enc

/-- the value as an SQL value -/
def origOf (ff : FloatFmt) : Option TVal → Orig
  | none => .null
  | some (.int _ i) => .int i
  | some (.uint _ n) | some (.year n) => .int n
  | some (.bit _ n) => .bit n
  | some (.float b) => .float b
  | some (.double b) => .double b
  | some (.binary s) | some (.varbinary s) | some (.blob s) => .binary s
  | some v => .text (v.lit ff)

/-- Of the stored columns `l` of a record, the one with the name of `c` holds `x`. -/
def Stores (l : List Column) (cells : List Cell) (c : Column) (x : Option TVal) : Prop :=
  ∃ i : Nat, (l.map (·.name))[i]? = some c.name ∧ cells[i]? = some (cellOfVal x)

/-- the contents of a column of a REDUNDANT record -/
def OldCell.cell (x : OldCell) : Cell := if x.null then .null else .val x.bytes

/-- The page holds these records, in the order of its record list, or of its free list; they end before the page trailer. -/
inductive PageHolds (defs : List ColDef) (deleted : Bool) (d : Bytes) : List (List Cell) → Prop where
  | compact {os rows} : isCompact d = true → Records deleted d os →
      All2 (fun o cells => CompactRow d defs o cells ∧ o + (rowData (rowOf defs cells)).length ≤ 16384 - 8) os rows →
      PageHolds defs deleted d rows
  | redundant {os rows} : isCompact d = false → Records deleted d os →
      All2 (fun o r => (OldRow d defs o r ∧ o + (oldData r.2).length ≤ 16384 - 8) ∧
        All2 (fun k x => x.null = true → k.nullable = true) defs r.2) os rows →
      PageHolds defs deleted d (rows.map fun r => r.2.map OldCell.cell)

/-- the leaf pages of the index `cid`; for deleted rows, those with a free list -/
def leafPages (content : Bytes) (cid : Nat) (deleted : Bool) : List Bytes :=
  (filePages content).filter fun d => field d FIL_PAGE_TYPE == FIL_PAGE_INDEX && field d PAGE_LEVEL == 0 && field d PAGE_INDEX_ID == cid &&
    (!deleted || field d PAGE_FREE != 0)

/-- The file holds these rows of a table with the columns `cols`, which are stored as `l` in the index `cid`. -/
structure TableFile (env : Env) (content : Bytes) (cid : Nat) (cols l : List Column) (defs : List ColDef) (deleted : Bool)
    (rows : List (List (Option TVal))) : Prop where
  names : (cols.map (·.name)).Nodup ∧ ∀ c ∈ cols, c.name ∉ internalNames
  bits : ∀ c ∈ cols, c.mtype = MYSQL_TYPE_BIT → c.ftype = DATA_FIXBINARY
  desc : All2 Describes l defs
  pages : ∃ rss, rows = rss.flatten ∧ All2 (fun d rs => ∃ cellss, PageHolds defs deleted d cellss ∧
    All2 (fun cells row => All2 (Stores l cells) cols row) cellss rs) (leafPages content cid deleted) rss
  typed : ∀ row ∈ rows, All2 (fun c x => ∀ v, x = some v → v.Of c ∧ v.Fits env.zone) cols row

/-- the values that are printed so that they can be read back -/
def Shown (ff : FloatFmt) : TVal → Prop
  | .bit _ n => n < 2
  | .float b => ff.f32 b ≠ b! "0001-01-01T00:00:00Z"
  | .double b => ff.f64 b ≠ b! "0001-01-01T00:00:00Z"
  | .varcharLatin1 s | .charLatin1 s | .varchar s | .char s _ | .text s => s ≠ b! "NULL" ∧ s ≠ b! "0001-01-01T00:00:00Z"
  | _ => True

/-- The tool gets this value of the column right. -/
def Restored (ff : FloatFmt) (c : Column) : Option TVal → Prop
  | none => c.mtype ≠ MYSQL_TYPE_BIT
  | some v => TVal.Decodable v ∧ Shown ff v

/-- The line is a REPLACE statement that puts these values into the table. -/
def Printed (ff : FloatFmt) (db table : Bytes) (line : Bytes) (row : List (Option TVal)) : Prop :=
  ∃ vs, readReplace line = some ⟨db, table, vs⟩ ∧ All2 (Denotes ff) vs (row.map (origOf ff))

end Verif.Props
