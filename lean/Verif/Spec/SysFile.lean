import Verif.Spec.Dictionary
import Verif.Spec.Chain
import Verif.Spec.Record
/-!
# Specification: the data dictionary in the system tablespace

Written from the InnoDB documentation (dict0boot.h, dict0crea.cc, btr0btr.h).  The page numbered 7 of the system tablespace is the
dictionary header; it names the root pages of the clustered indexes of SYS_TABLES, SYS_COLUMNS, SYS_INDEXES and SYS_FIELDS, which have
the index ids 1, 2, 3 and 4.  The records of the leaf pages are the rows; the records of the other pages of the tree consist of the key
columns and the number of the child page.  All pages are in REDUNDANT format.
-/

namespace Verif.Spec

/-- The pages of a file; of several copies of a page the first counts. -/
def filePages (content : Bytes) : List Bytes := (firstCopies content).map (pageImage content)

/-! ## Records -/

/-- a record of a leaf page of SYS_TABLES -/
def TablesLeaf (r : TableRow) (row : List OldCell) : Prop :=
  r.id < 2 ^ 64 ∧ r.space < 2 ^ 32 ∧ ∃ trx roll nCols type mixId mixLen cluster : Bytes, trx.length = 6 ∧ roll.length = 7 ∧
    nCols.length = 4 ∧ type.length = 4 ∧ mixLen.length = 4 ∧
    row.map (·.bytes) = [r.name, trx, roll, beEnc 8 r.id, nCols, type, mixId, mixLen, cluster, beEnc 4 r.space]

/-- a record of a leaf page of SYS_COLUMNS -/
def ColumnsLeaf (r : ColumnRow) (row : List OldCell) : Prop :=
  r.tableId < 2 ^ 64 ∧ r.pos < 2 ^ 32 ∧ r.mtype < 2 ^ 32 ∧ r.prtype < 2 ^ 32 ∧ r.len < 2 ^ 32 ∧
  ∃ trx roll prec : Bytes, trx.length = 6 ∧ roll.length = 7 ∧ prec.length = 4 ∧
    row.map (·.bytes) = [beEnc 8 r.tableId, beEnc 4 r.pos, trx, roll, r.name, beEnc 4 r.mtype, beEnc 4 r.prtype, beEnc 4 r.len, prec]

/-- a record of a leaf page of SYS_INDEXES -/
def IndexesLeaf (r : IndexRow) (row : List OldCell) : Prop :=
  r.tableId < 2 ^ 64 ∧ r.id < 2 ^ 64 ∧ r.nFields < 2 ^ 32 ∧ r.itype < 2 ^ 32 ∧
  ∃ trx roll space pageNo : Bytes, trx.length = 6 ∧ roll.length = 7 ∧ space.length = 4 ∧ pageNo.length = 4 ∧
    row.map (·.bytes) = [beEnc 8 r.tableId, beEnc 8 r.id, trx, roll, r.name, beEnc 4 r.nFields, beEnc 4 r.itype, space, pageNo]

/-- a record of a leaf page of SYS_FIELDS -/
def FieldsLeaf (r : FieldRow) (row : List OldCell) : Prop :=
  r.indexId < 2 ^ 64 ∧ r.pos < 2 ^ 32 ∧ ∃ trx roll : Bytes, trx.length = 6 ∧ roll.length = 7 ∧
    row.map (·.bytes) = [beEnc 8 r.indexId, beEnc 4 r.pos, trx, roll, r.name]

/-- A record of a page above the leaves: key columns with the given lengths (`none` for a variable length) and a page number. -/
def NodePointer (key : List (Option Nat)) (row : List OldCell) : Prop :=
  ∃ (cells : List OldCell) (child : OldCell), row = cells ++ [child] ∧ child.bytes.length = 4 ∧
    All2 (fun l x => ∀ n, l = some n → x.bytes.length = n) key cells

/-! ## Pages -/

/-- A REDUNDANT record at an offset: one-byte end offsets are used for up to 127 bytes of data. -/
def OldRecordAt (d : Bytes) (o : Nat) (row : List OldCell) : Prop :=
  ∃ w, RedundantAt d o w row ∧ (w = 1 ∧ (oldData row).length ≤ 127 ∨ w = 2)

/-- A page of a dictionary tree, and the rows stored in it. -/
inductive TreePage {ρ : Type} (leaf : ρ → List OldCell → Prop) (key : List (Option Nat)) (d : Bytes) : List ρ → Prop where
  | leaf {os rows rs} (hc : isCompact d = false) (hl : Linked d false (infimumAt false) os) (hr : All2 (OldRecordAt d) os rows)
      (hs : All2 leaf rs rows) : TreePage leaf key d rs
  | node {o os row} (hc : isCompact d = false) (hl : Linked d false (infimumAt false) (o :: os)) (hr : OldRecordAt d o row)
      (hn : NodePointer key row) : TreePage leaf key d []

/-- The pages of the tree with a given index id, the first of which is its root, and the rows of the table. -/
def Tree {ρ : Type} (pages : List Bytes) (root id : Nat) (leaf : ρ → List OldCell → Prop) (key : List (Option Nat)) (rows : List ρ) : Prop :=
  ∃ (d : Bytes) (ds : List Bytes) (rss : List (List ρ)), pages.filter (fun d => field d PAGE_INDEX_ID == id) = d :: ds ∧ pageNumber d = root ∧
    All2 (TreePage leaf key) (d :: ds) rss ∧ rows = rss.flatten

/-- A system tablespace with these rows in the dictionary. -/
def SystemFile (content : Bytes) (trs : List TableRow) (crs : List ColumnRow) (irs : List IndexRow) (frs : List FieldRow) : Prop :=
  ∃ h ∈ filePages content, pageNumber h = 7 ∧
    Tree (filePages content) (field h DICT_HDR_TABLES) 1 TablesLeaf [none] trs ∧
    Tree (filePages content) (field h DICT_HDR_COLUMNS) 2 ColumnsLeaf [some 8, some 4] crs ∧
    Tree (filePages content) (field h DICT_HDR_INDEXES) 3 IndexesLeaf [some 8, some 8] irs ∧
    Tree (filePages content) (field h DICT_HDR_FIELDS) 4 FieldsLeaf [some 8, some 4] frs

end Verif.Spec
