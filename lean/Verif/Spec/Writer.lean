import Verif.Spec.SysFile
/-!
# Specification: writing pages

Index pages with given records, one behind the other, and a system tablespace with given dictionary rows.  `Proofs/Writer` shows that they are
in the formats of `SystemFile` and `TableFile`, for all rows that fit on a page.
-/

namespace Verif.Spec

def nul (n : Nat) : Bytes := List.replicate n 0

/-- a record to be written: the bytes before its origin, which end with the given link, their number, and the bytes behind its origin -/
structure WRec where
  head : Nat → Bytes
  n : Nat
  data : Bytes

def WRec.size (r : WRec) : Nat := r.n + r.data.length

/-- the bytes before the origin of a REDUNDANT record, with `w`-byte end offsets -/
def oldHead (w : Nat) (row : List OldCell) (next : Nat) : Bytes :=
  endInfos w 0 row ++ [0, 0, 0] ++ [if w = 1 then 1 else 0] ++ beEnc 2 next

/-- the bytes before the origin of a COMPACT record -/
def newHead (row : Row) (next : Nat) : Bytes := compactPrefix row ([0, 0, 0] ++ beEnc 2 next)

def oldRec (row : List OldCell) : WRec := ⟨oldHead 2 row, 2 * row.length + 6, oldData row⟩
def newRec (row : Row) : WRec := ⟨newHead row, (newHead row 0).length, rowData row⟩

/-- the origin of the first of the records, if they are written from `s` on -/
def firstOrigin (s : Nat) : List WRec → Option Nat
  | [] => none
  | r :: _ => some (s + r.n)

def origins : Nat → List WRec → List Nat
  | _, [] => []
  | s, r :: rs => (s + r.n) :: origins (s + r.size) rs

def total (rs : List WRec) : Nat := (rs.map WRec.size).sum

/-- the records, written from `s` on; `lk` is the link from a record to the next one, or at the end of the list -/
def chain (lk : Nat → Option Nat → Nat) : Nat → List WRec → Bytes
  | _, [] => []
  | s, r :: rs => r.head (lk (s + r.n) (firstOrigin (s + r.size) rs)) ++ r.data ++ chain lk (s + r.size) rs

/-- links of the records in use, which end with the supremum record -/
def liveLink (compact : Bool) (o : Nat) : Option Nat → Nat
  | some o' => (if compact then 65536 + o' - o else o') % 65536
  | none => (if compact then 65536 + 112 - o else 116) % 65536

/-- links of the free list, which end with zero -/
def freeLink (compact : Bool) (o : Nat) : Option Nat → Nat
  | some o' => (if compact then o' - o else o') % 65536
  | none => 0

/-- where the first user record can begin -/
def pageBase (compact : Bool) : Nat := if compact then 120 else 125

/-- the first bytes of a leaf page: FIL header, page header, infimum and supremum record -/
def pageTop (compact : Bool) (number id free garbage recs next : Nat) : Bytes :=
  nul 4 ++ beEnc 4 number ++ nul 16 ++ beEnc 2 17855 ++ nul 16 ++ beEnc 2 (if compact then 32768 else 0) ++ beEnc 2 free ++
    beEnc 2 garbage ++ nul 6 ++ beEnc 2 recs ++ nul 10 ++ beEnc 8 id ++ nul (if compact then 23 else 25) ++ beEnc 2 next ++
    nul (if compact then 21 else 24)

/-- a leaf page with records in use and deleted records, without the zeros at its end -/
def writePage (compact : Bool) (number id : Nat) (live dead : List WRec) : Bytes :=
  pageTop compact number id ((firstOrigin (pageBase compact + total live) dead).getD 0) (total dead) live.length
      (liveLink compact (infimumAt compact) (firstOrigin (pageBase compact) live)) ++
    chain (liveLink compact) (pageBase compact) live ++ chain (freeLink compact) (pageBase compact + total live) dead

/-- fill a page with zeros -/
def fill (p : Bytes) : Bytes := p ++ List.replicate (16384 - p.length) 0

def writeFile (pages : List Bytes) : Bytes := (pages.map fill).flatten

/-! ## The system tablespace -/

def wcell (b : Bytes) : OldCell := ⟨b, false⟩

def tableRec (r : TableRow) : List OldCell :=
  [wcell r.name, wcell (nul 6), wcell (nul 7), wcell (beEnc 8 r.id), wcell (nul 4), wcell (beEnc 4 1), wcell (nul 8), wcell (nul 4), ⟨[], true⟩,
    wcell (beEnc 4 r.space)]
def columnRec (r : ColumnRow) : List OldCell :=
  [wcell (beEnc 8 r.tableId), wcell (beEnc 4 r.pos), wcell (nul 6), wcell (nul 7), wcell r.name, wcell (beEnc 4 r.mtype),
    wcell (beEnc 4 r.prtype), wcell (beEnc 4 r.len), wcell (nul 4)]
def indexRec (r : IndexRow) : List OldCell :=
  [wcell (beEnc 8 r.tableId), wcell (beEnc 8 r.id), wcell (nul 6), wcell (nul 7), wcell r.name, wcell (beEnc 4 r.nFields),
    wcell (beEnc 4 r.itype), wcell (nul 4), wcell (nul 4)]
def fieldRec (r : FieldRow) : List OldCell :=
  [wcell (beEnc 8 r.indexId), wcell (beEnc 4 r.pos), wcell (nul 6), wcell (nul 7), wcell r.name]

/-- page 7: the roots are the pages 8, 10, 11 and 12 -/
def sysHeader : Bytes := nul 4 ++ beEnc 4 7 ++ nul 62 ++ beEnc 4 8 ++ nul 4 ++ beEnc 4 10 ++ beEnc 4 11 ++ beEnc 4 12

def sysTree (number id : Nat) (rows : List (List OldCell)) : Bytes := writePage false number id (rows.map oldRec) []

def writeSystem (trs : List TableRow) (crs : List ColumnRow) (irs : List IndexRow) (frs : List FieldRow) : Bytes :=
  writeFile [sysHeader, sysTree 8 1 (trs.map tableRec), sysTree 10 2 (crs.map columnRec), sysTree 11 3 (irs.map indexRec),
    sysTree 12 4 (frs.map fieldRec)]

/-- the rows of one of the dictionary tables fit on a page -/
def OnePage (rows : List (List OldCell)) : Prop := total (rows.map oldRec) < 16384 - 8 - 125

instance (rows : List (List OldCell)) : Decidable (OnePage rows) := inferInstanceAs (Decidable (_ < _))

structure Writable (trs : List TableRow) (crs : List ColumnRow) (irs : List IndexRow) (frs : List FieldRow) : Prop where
  tables : ∀ r ∈ trs, r.id < 2 ^ 64 ∧ r.space < 2 ^ 32
  columns : ∀ r ∈ crs, r.tableId < 2 ^ 64 ∧ r.pos < 2 ^ 32 ∧ r.mtype < 2 ^ 32 ∧ r.prtype < 2 ^ 32 ∧ r.len < 2 ^ 32
  indexes : ∀ r ∈ irs, r.tableId < 2 ^ 64 ∧ r.id < 2 ^ 64 ∧ r.nFields < 2 ^ 32 ∧ r.itype < 2 ^ 32
  fields : ∀ r ∈ frs, r.indexId < 2 ^ 64 ∧ r.pos < 2 ^ 32
  onTables : OnePage (trs.map tableRec)
  onColumns : OnePage (crs.map columnRec)
  onIndexes : OnePage (irs.map indexRec)
  onFields : OnePage (frs.map fieldRec)

end Verif.Spec
