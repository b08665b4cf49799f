import Verif.Proofs.DictCols
import Verif.Proofs.Pages
import Verif.Proofs.Poke
import Verif.Spec.Page
/-!
# C30 to C34: dictionary pages, rows, column order
-/

namespace Verif.Props
open Verif Spec

/-! ## C33 -/

/-- the nullable columns in a list -/
def nullable (cols : List Column) : Nat := (cols.filter (·.isNull)).length

/-- The table that the rows of SYS_TABLES and SYS_COLUMNS define: the last row of the id gives the names and the space, the
columns are those of the rows with this table id, in order. -/
def definedTable (column : ColumnRow → Column) (trs : List TableRow) (crs : List ColumnRow) (id : Nat) : Option Table :=
  (lastWith (fun r => r.id == id) trs).map fun r =>
    let cols := (crs.filter (·.tableId == id)).map column
    { tableOf r with columns := cols, nullCount := nullable cols }

/-- **C33**, as stated: the rows define the tables, and every flag of a column is its bit of PRTYPE. -/
def C33_statement : Prop :=
  ∀ (trows crows : List (List Column)) (trs : List TableRow) (crs : List ColumnRow),
    All2 IsTableRow trows trs → All2 IsColumnRow crows crs →
    ∃ t1 t2, foldRows addTableRow [] trows = some t1 ∧ foldRows addColumnRow t1 crows = some t2 ∧ t2.WF ∧
      ∀ id, t2.get? id = definedTable columnOf trs crs id

theorem nullable_tool (rs : List ColumnRow) : nullable (rs.map toolColumn) = nullableRows rs := by
  unfold nullable nullableRows
  rw [List.filter_map, List.length_map]
  rfl

/-- What holds for all rows: tables, and columns with the binary flag only for MTYPE 5 (DATA_BLOB). -/
theorem C33_rows (trows crows : List (List Column)) (trs : List TableRow) (crs : List ColumnRow)
    (ht : All2 IsTableRow trows trs) (hc : All2 IsColumnRow crows crs) :
    ∃ t1 t2, foldRows addTableRow [] trows = some t1 ∧ foldRows addColumnRow t1 crows = some t2 ∧ t2.WF ∧
      ∀ id, t2.get? id = definedTable
        (fun r => { columnOf r with isBinary := r.mtype == 5 && bit r.prtype DATA_BINARY_TYPE }) trs crs id := by
  refine ⟨_, _, foldRows_typed addTableRow (fun m r => m.put r.id (tableOf r)) IsTableRow addTableRow_eq trows trs ht [],
    foldRows_typed addColumnRow addCol IsColumnRow addColumnRow_eq crows crs hc _,
    addCols_WF (foldl_put_WF _ _ trs [] GoMap.nil_WF) crs, ?_⟩
  intro id
  rw [addCols_get, foldl_put (fun r : TableRow => r.id) tableOf trs [] id, GoMap.get?_nil, Option.or_none, Option.map_map]
  unfold definedTable
  congr 1
  funext r
  have : ((crs.filter (·.tableId == id)).map fun r =>
      ({ columnOf r with isBinary := r.mtype == 5 && bit r.prtype DATA_BINARY_TYPE } : Column)) =
      (crs.filter (·.tableId == id)).map toolColumn := rfl
  simp only [Function.comp_apply, this, nullable_tool]
  show ({ tableOf r with nullCount := 0 + _, columns := [] ++ _ } : Table) = _
  rw [Nat.zero_add, List.nil_append]

/-- **C33**, for dictionaries in which only BLOB columns have the binary bit of PRTYPE set. -/
theorem C33_definitions_partial (trows crows : List (List Column)) (trs : List TableRow) (crs : List ColumnRow)
    (ht : All2 IsTableRow trows trs) (hc : All2 IsColumnRow crows crs)
    (hb : ∀ r ∈ crs, bit r.prtype DATA_BINARY_TYPE = true → r.mtype = 5) :
    ∃ t1 t2, foldRows addTableRow [] trows = some t1 ∧ foldRows addColumnRow t1 crows = some t2 ∧ t2.WF ∧
      ∀ id, t2.get? id = definedTable columnOf trs crs id := by
  obtain ⟨t1, t2, h1, h2, h3, h4⟩ := C33_rows trows crows trs crs ht hc
  refine ⟨t1, t2, h1, h2, h3, fun id => ?_⟩
  rw [h4]
  unfold definedTable
  congr 1
  funext r
  have : ((crs.filter (·.tableId == id)).map fun r =>
      ({ columnOf r with isBinary := r.mtype == 5 && bit r.prtype DATA_BINARY_TYPE } : Column)) =
      (crs.filter (·.tableId == id)).map columnOf := by
    apply List.map_congr_left
    intro r hr
    have hr := (List.mem_filter.mp hr).1
    unfold columnOf
    cases hbit : bit r.prtype DATA_BINARY_TYPE with
    | false => rw [Bool.and_false]
    | true => rw [hb r hr hbit]; rfl
  rw [this]

theorem lastWith_some {α : Type} {p : α → Bool} {l : List α} {a : α} (h : lastWith p l = some a) : p a = true ∧ a ∈ l := by
  unfold lastWith at h
  exact ⟨by simpa using List.find?_some h, by simpa using List.mem_of_find?_eq_some h⟩

/-- **C33, exactly.** The loaded definitions are the documented ones if and only if every column of a table with the binary bit of PRTYPE set has
MTYPE 5. -/
theorem C33_iff (trows crows : List (List Column)) (trs : List TableRow) (crs : List ColumnRow)
    (ht : All2 IsTableRow trows trs) (hc : All2 IsColumnRow crows crs) :
    (∃ t1 t2, foldRows addTableRow [] trows = some t1 ∧ foldRows addColumnRow t1 crows = some t2 ∧ t2.WF ∧
      ∀ id, t2.get? id = definedTable columnOf trs crs id) ↔
    ∀ r ∈ crs, (∃ t ∈ trs, t.id = r.tableId) → bit r.prtype DATA_BINARY_TYPE = true → r.mtype = 5 := by
  obtain ⟨t1, t2, h1, h2, h3, h4⟩ := C33_rows trows crows trs crs ht hc
  constructor
  · rintro ⟨t1', t2', e1, e2, -, e4⟩ r hr ⟨t, htm, hti⟩ hbit
    rw [h1] at e1
    cases e1
    rw [h2] at e2
    cases e2
    have e := (h4 r.tableId).symm.trans (e4 r.tableId)
    obtain ⟨u, hu⟩ : ∃ u, lastWith (fun x : TableRow => x.id == r.tableId) trs = some u := by
      cases hl : lastWith (fun x : TableRow => x.id == r.tableId) trs with
      | some u => exact ⟨u, rfl⟩
      | none => 
        unfold lastWith at hl
        exact absurd hti (by simpa using List.find?_eq_none.mp hl t (List.mem_reverse.mpr htm))
    unfold definedTable at e
    rw [hu, Option.map_some, Option.map_some] at e
    injection e with e
    have e := congrArg Table.columns e
    dsimp only at e
    have := List.map_inj_left.mp e r (List.mem_filter.mpr ⟨hr, by simp⟩)
    have := congrArg Column.isBinary this
    dsimp only [columnOf] at this
    rw [hbit, Bool.and_true] at this
    simpa using this
  · intro hb
    refine ⟨t1, t2, h1, h2, h3, fun id => ?_⟩
    rw [h4]
    unfold definedTable
    cases hl : lastWith (fun x : TableRow => x.id == id) trs with
    | none => rfl
    | some u =>
      obtain ⟨hi, hm⟩ := lastWith_some hl
      have : ((crs.filter (·.tableId == id)).map fun r =>
          ({ columnOf r with isBinary := r.mtype == 5 && bit r.prtype DATA_BINARY_TYPE } : Column)) =
          (crs.filter (·.tableId == id)).map columnOf := by
        apply List.map_congr_left
        intro r hr
        obtain ⟨hr, hi'⟩ := List.mem_filter.mp hr
        unfold columnOf
        cases hbit : bit r.prtype DATA_BINARY_TYPE with
        | false => rw [Bool.and_false]
        | true => rw [hb r hr ⟨u, hm, by simp at hi hi'; omega⟩ hbit]; rfl
      rw [this]

/-- the nullable-column count of every table is the number of its nullable columns -/
theorem C33_null_count (trows crows : List (List Column)) (trs : List TableRow) (crs : List ColumnRow)
    (ht : All2 IsTableRow trows trs) (hc : All2 IsColumnRow crows crs) (t1 t2 : TableMap)
    (h1 : foldRows addTableRow [] trows = some t1) (h2 : foldRows addColumnRow t1 crows = some t2) (id : Nat) (t : Table)
    (h : t2.get? id = some t) : t.nullCount = nullable t.columns := by
  obtain ⟨t1', t2', e1, e2, _, h4⟩ := C33_rows trows crows trs crs ht hc
  rw [h1] at e1
  injection e1 with e1
  subst e1
  rw [h2] at e2
  injection e2 with e2
  subst e2
  rw [h4] at h
  unfold definedTable at h
  cases hl : lastWith (fun r : TableRow => r.id == id) trs with
  | none => rw [hl] at h; cases h
  | some r =>
    rw [hl] at h
    injection h with h
    rw [← h]

def cell (v : Val) : Column := { value := v }

/-- the decoded row of a table -/
def tableCells (r : TableRow) : List Column :=
  [.str r.name, .nil, .nil, .uint r.id, .nil, .nil, .nil, .nil, .nil, .uint r.space].map cell
def columnCells (r : ColumnRow) : List Column :=
  [.uint r.tableId, .uint r.pos, .nil, .nil, .str r.name, .uint r.mtype, .uint r.prtype, .uint r.len, .nil].map cell
def indexCells (r : IndexRow) : List Column :=
  [.uint r.tableId, .uint r.id, .nil, .nil, .str r.name, .uint r.nFields, .uint r.itype, .nil, .nil].map cell
def fieldCells (r : FieldRow) : List Column := [.uint r.indexId, .uint r.pos, .nil, .nil, .str r.name].map cell

theorem tableCells_is (r : TableRow) : IsTableRow (tableCells r) r := ⟨rfl, rfl, rfl⟩
theorem columnCells_is (r : ColumnRow) : IsColumnRow (columnCells r) r := ⟨rfl, rfl, rfl, rfl, rfl, rfl⟩
theorem indexCells_is (r : IndexRow) : IsIndexRow (indexCells r) r := ⟨rfl, rfl, rfl, rfl, rfl⟩
theorem fieldCells_is (r : FieldRow) : IsFieldRow (fieldCells r) r := ⟨rfl, rfl, rfl⟩

/-- every list of typed rows is the contents of some rows -/
theorem all2_map {ρ : Type} {Is : List Column → ρ → Prop} {f : ρ → List Column} (h : ∀ r, Is (f r) r) (rs : List ρ) :
    All2 Is (rs.map f) rs := by
  induction rs with
  | nil => exact .nil
  | cons r rs ih => exact .cons (h r) ih

/-- **C33 is false**: a VARBINARY column (MTYPE 4, PRTYPE with bit 10) is not flagged as binary. -/
theorem C33_false : ¬ C33_statement := by
  intro h
  let tr : TableRow := ⟨b! "d/t", 13, 0⟩
  let cr : ColumnRow := ⟨13, 0, b! "c", 4, 15 + 1024, 10⟩
  obtain ⟨t1, t2, h1, h2, _, h4⟩ := h [tableCells tr] [columnCells cr] [tr] [cr] (.cons (tableCells_is tr) .nil)
    (.cons (columnCells_is cr) .nil)
  obtain ⟨t1', t2', e1, e2, _, h4'⟩ := C33_rows [tableCells tr] [columnCells cr] [tr] [cr] (.cons (tableCells_is tr) .nil)
    (.cons (columnCells_is cr) .nil)
  rw [h1] at e1
  injection e1 with e1
  subst e1
  rw [h2] at e2
  injection e2 with e2
  subst e2
  have e := (h4 13).symm.trans (h4' 13)
  exact absurd e (by decide)

/-- non-vacuity: two tables, one of them defined twice, columns in mixed order -/
example : ∃ t1 t2, foldRows addTableRow [] ([⟨b! "d/t", 13, 0⟩, ⟨b! "SYS_FOREIGN", 11, 0⟩, ⟨b! "d/u", 13, 5⟩].map tableCells) = some t1 ∧
    foldRows addColumnRow t1 ([⟨13, 0, b! "id", 6, 3 + 256 + 512, 4⟩, ⟨99, 0, b! "x", 6, 3, 4⟩, ⟨11, 0, b! "ID", 1, 0, 0⟩,
      ⟨13, 1, b! "b", 5, 252 + 1024, 10⟩].map columnCells) = some t2 ∧
    t2.get? 13 = some { db := b! "d", name := b! "u", spaceId := 5, nullCount := 1, columns := [
      { name := b! "id", ftype := 6, mtype := 3, pos := 0, len := 4, isNull := false, isUnsigned := true, tableId := 13 },
      { name := b! "b", ftype := 5, mtype := 252, pos := 1, len := 10, isNull := true, isBinary := true, tableId := 13 }] } ∧
    t2.get? 99 = none := by
  obtain ⟨t1, t2, h1, h2, _, h4⟩ := C33_definitions_partial _ _ _ _ (all2_map tableCells_is [⟨b! "d/t", 13, 0⟩, ⟨b! "SYS_FOREIGN", 11, 0⟩, ⟨b! "d/u", 13, 5⟩])
    (all2_map columnCells_is [⟨13, 0, b! "id", 6, 3 + 256 + 512, 4⟩, ⟨99, 0, b! "x", 6, 3, 4⟩, ⟨11, 0, b! "ID", 1, 0, 0⟩,
      ⟨13, 1, b! "b", 5, 252 + 1024, 10⟩]) (by decide)
  exact ⟨t1, t2, h1, h2, by rw [h4]; decide, by rw [h4]; decide⟩

/-! ## C34 -/

/-- The index of a table with a given id: the last SYS_INDEXES row of the table with this id, with the fields of the
SYS_FIELDS rows of this id in order. -/
def definedIndex (irs : List IndexRow) (frs : List FieldRow) (id k : Nat) : Option Index :=
  (lastWith (fun r => r.tableId == id && r.id == k) irs).map fun r =>
    { indexOf r with fields := (frs.filter (·.indexId == k)).map fieldOf }

theorem lastWith_filter {α : Type} (p q : α → Bool) (l : List α) :
    lastWith p (l.filter q) = lastWith (fun a => q a && p a) l := by
  unfold lastWith
  rw [← List.filter_reverse, List.find?_filter]
  congr 1
  funext a
  simp

/-- **C34.** For tables without indexes yet (as `getAllColumns` leaves them): every index row of a known table is recorded
under that table and its id, with the fields of its SYS_FIELDS rows in order; nothing else of the tables changes; and
an error results exactly if some index row names an unknown table. -/
theorem C34_indexes (ff : FloatFmt) (tables : TableMap) (hw : tables.WF)
    (he : ∀ id t, tables.get? id = some t → t.indexes = [])
    (irows frows : List (List Column)) (irs : List IndexRow) (frs : List FieldRow)
    (hi : All2 IsIndexRow irows irs) (hf : All2 IsFieldRow frows frs) :
    ∃ t1 err m, foldRows (fun b r => addIndexRow ff b.1 b.2 r) (tables, none) irows = some (t1, err) ∧
      foldRows addFieldRow [] frows = some m ∧ t1.WF ∧
      (err = none ↔ ∀ r ∈ irs, (tables.get? r.tableId).isSome) ∧
      (∀ id, ((attachFields m t1).get? id).map (fun t => { t with indexes := [] }) = tables.get? id) ∧
      (∀ id t, (attachFields m t1).get? id = some t → t.indexes.WF ∧ ∀ k, t.indexes.get? k = definedIndex irs frs id k) := by
  have e1 : foldRows (fun b r => addIndexRow ff b.1 b.2 r) (tables, none) irows = some (irs.foldl (addIdx ff) (tables, none)) :=
    foldRows_typed _ (addIdx ff) IsIndexRow (fun b row r h => addIndexRow_eq ff b row r h) irows irs hi _
  have e2 := foldRows_typed addFieldRow addFld IsFieldRow addFieldRow_eq frows frs hf []
  refine ⟨_, _, _, e1, e2, addIdxs_WF ff irs hw, ?_, ?_, ?_⟩
  · rw [addIdxs_err]
    cases hl : lastWith (fun r : IndexRow => (tables.get? r.tableId).isNone) irs with
    | some r =>
      obtain ⟨hp, hm⟩ := lastWith_some hl
      constructor
      · intro h; cases h
      · intro h
        have := h r hm
        rw [Option.isNone_iff_eq_none] at hp
        rw [hp] at this
        cases this
    | none =>
      refine ⟨fun _ r hr => ?_, fun _ => rfl⟩
      unfold lastWith at hl
      have := List.find?_eq_none.mp hl r (by simpa using hr)
      cases ht : tables.get? r.tableId with
      | none => rw [ht] at this; exact absurd rfl this
      | some t => rfl
  · intro id
    rw [attachFields_get, addIdxs_get, Option.map_map, Option.map_map]
    cases ht : tables.get? id with
    | none => rfl
    | some t =>
      show some ({ t with indexes := [] } : Table) = _
      have := he id t ht
      cases t
      dsimp only at this
      rw [this]
  · intro id t h
    rw [attachFields_get, addIdxs_get, Option.map_map] at h
    cases ht : tables.get? id with
    | none => rw [ht] at h; cases h
    | some t0 =>
      rw [ht] at h
      injection h with h
      subst h
      dsimp only [Function.comp_apply]
      rw [he id t0 ht]
      have hwf := foldl_put_WF (fun r : IndexRow => r.id) indexOf (irs.filter (·.tableId == id)) [] GoMap.nil_WF
      refine ⟨?_, fun k => ?_⟩
      · unfold GoMap.WF at hwf ⊢
        rw [List.map_map]
        exact hwf
      · refine (GoMap.get?_map _ (fun a (ix : Index) => ({ ix with fields := ((frs.foldl addFld []).get? a).getD ix.fields } : Index)) k).trans ?_
        rw [foldl_put (fun r : IndexRow => r.id) indexOf, GoMap.get?_nil, Option.or_none, Option.map_map, lastWith_filter]
        unfold definedIndex
        congr 1
        funext r
        have := addFlds_get frs [] k
        rw [GoMap.get?_nil, Option.getD_none, List.nil_append] at this
        show ({ indexOf r with fields := ((frs.foldl addFld []).get? k).getD [] } : Index) = _
        rw [this]

/-- the error names the last unknown table -/
theorem C34_error (ff : FloatFmt) (tables : TableMap) (irows : List (List Column)) (irs : List IndexRow)
    (hi : All2 IsIndexRow irows irs) (t1 : TableMap) (err : Option Bytes)
    (h : foldRows (fun b r => addIndexRow ff b.1 b.2 r) (tables, none) irows = some (t1, err)) :
    err = (lastWith (fun r : IndexRow => (tables.get? r.tableId).isNone) irs).map fun r =>
      b! "Table ID have not found " ++ dec r.tableId := by
  have e1 : foldRows (fun b r => addIndexRow ff b.1 b.2 r) (tables, none) irows = some (irs.foldl (addIdx ff) (tables, none)) :=
    foldRows_typed _ (addIdx ff) IsIndexRow (fun b row r h => addIndexRow_eq ff b row r h) irows irs hi _
  rw [h] at e1
  injection e1 with e1
  have e2 := addIdxs_err ff irs (tables, none)
  rw [← e1] at e2
  dsimp only at e2
  rw [e2]
  cases lastWith (fun r : IndexRow => (tables.get? r.tableId).isNone) irs <;> rfl

theorem one_table_plain (id : Nat) (t : Table) (h : GoMap.get? [(13, ({ name := b! "t" } : Table) )] id = some t) : t.indexes = [] := by
  rw [GoMap.get?_cons] at h
  split at h
  · injection h with h
    rw [← h]
  · cases h

/-- non-vacuity: a table with two indexes, fields in mixed order -/
example : ∃ t1 m, foldRows (fun b r => addIndexRow ⟨fun _ => [], fun _ => []⟩ b.1 b.2 r) ([(13, { name := b! "t" })], none)
      ([⟨13, 20, b! "PRIMARY", 2, 3⟩, ⟨13, 21, b! "k", 1, 0⟩].map indexCells) = some (t1, none) ∧
    foldRows addFieldRow [] ([⟨20, 0, b! "a"⟩, ⟨21, 0, b! "c"⟩, ⟨20, 1, b! "b"⟩].map fieldCells) = some m ∧
    ∀ t, (attachFields m t1).get? 13 = some t →
      t.indexes.get? 20 = some ⟨20, b! "PRIMARY", 2, 3, [⟨0, b! "a"⟩, ⟨1, b! "b"⟩]⟩ := by
  obtain ⟨t1, err, m, h1, h2, _, h4, _, h6⟩ := C34_indexes ⟨fun _ => [], fun _ => []⟩ [(13, { name := b! "t" })] (by unfold GoMap.WF; decide)
    one_table_plain _ _ _ _ (all2_map indexCells_is [⟨13, 20, b! "PRIMARY", 2, 3⟩, ⟨13, 21, b! "k", 1, 0⟩])
    (all2_map fieldCells_is [⟨20, 0, b! "a"⟩, ⟨21, 0, b! "c"⟩, ⟨20, 1, b! "b"⟩])
  have herr : err = none := h4.mpr (by decide)
  rw [herr] at h1
  exact ⟨t1, m, h1, h2, fun t ht => by rw [(h6 13 t ht).2 20]; decide⟩

/-! ## C31 -/

/-- the column with a name -/
def columnNamed (cols : List Column) (n : Bytes) : Option Column := cols.find? (·.name == n)

/-- the columns in the order of the clustered index: the key columns in index order, then the others -/
def clusteredOrder (fields : List IdxField) (cols : List Column) : List Column :=
  fields.filterMap (fun f => columnNamed cols f.name) ++ cols.filter fun c => !(fields.map (·.name)).contains c.name

/-- the fields are columns of the table, named once -/
def KeyOf (fields : List IdxField) (cols : List Column) : Prop :=
  (cols.map (·.name)).Nodup ∧ (fields.map (·.name)).Nodup ∧ ∀ f ∈ fields, f.name ∈ cols.map (·.name)

instance (fields : List IdxField) (cols : List Column) : Decidable (KeyOf fields cols) :=
  inferInstanceAs (Decidable (_ ∧ _ ∧ _))

/-- **C31**, as stated, for one table -/
def C31_statement : Prop :=
  ∀ (fields : List IdxField) (cols : List Column), KeyOf fields cols →
    moveColumns2First fields cols = some (clusteredOrder fields cols)

/-- What the code does with a key of one column: it takes the place of the first column, which is lost. -/
theorem C31_single (cols : List Column) (hn : (cols.map (·.name)).Nodup) (f : IdxField) (p : Nat)
    (hp : p < cols.length) (hf : f.name = cols[p].name) : moveColumns2First [f] cols = some (cols.set 0 cols[p]) :=
  moveColumns2First_single cols hn f p hp hf

/-- What the code does with a key made of the first columns of the table: it reverses them. -/
theorem C31_leading (cols : List Column) (hn : (cols.map (·.name)).Nodup) (fs : List IdxField) (k : Nat)
    (hk : k ≤ cols.length) (hf : fs.map (·.name) = (cols.take k).map (·.name)) :
    moveColumns2First fs cols = some ((cols.take k).reverse ++ cols.drop k) :=
  moveColumns2First_prefix cols hn fs k hk hf

/-- **C31**, for a key that is the first column of the table -/
theorem C31_first_column_partial (c : Column) (cols : List Column) (hn : ((c :: cols).map (·.name)).Nodup) (f : IdxField)
    (hf : f.name = c.name) : moveColumns2First [f] (c :: cols) = some (clusteredOrder [f] (c :: cols)) := by
  rw [moveColumns2First_single (c :: cols) hn f 0 (by simp) hf]
  rw [List.map_cons, List.nodup_cons] at hn
  unfold clusteredOrder columnNamed
  congr 1
  simp only [List.filterMap_cons, List.filterMap_nil, List.find?_cons, hf, beq_self_eq_true, List.map_cons, List.map_nil]
  rw [List.filter_cons_of_neg (by simp)]
  show c :: cols = c :: _
  congr 1
  symm
  show cols.filter _ = cols
  rw [List.filter_eq_self]
  intro a ha
  have : a.name ≠ c.name := fun e => hn.1 (e ▸ List.mem_map_of_mem (f := (·.name)) ha)
  simpa using this

/-- no key: the columns stay as they are -/
theorem C31_no_key (ixs : List (Nat × Index)) (cols : List Column) (h : ∀ e ∈ ixs, e.2.name ≠ b! "PRIMARY") :
    movePrimaryTable ixs cols = some cols := movePrimaryTable_none ixs cols h

/-- whatever the order in which the indexes are met, only the primary one counts -/
theorem C31_index_order (l m : List (Nat × Index)) (e : Nat × Index) (cols : List Column)
    (hl : ∀ x ∈ l, x.2.name ≠ b! "PRIMARY") (hm : ∀ x ∈ m, x.2.name ≠ b! "PRIMARY") (he : e.2.name = b! "PRIMARY") :
    movePrimaryTable (l ++ e :: m) cols = moveColumns2First e.2.fields cols := movePrimaryTable_one l m e cols hl hm he

/-- a key with no more fields than the table has columns: no panic, and the number of columns is kept -/
theorem C31_total (fields : List IdxField) (cols : List Column) (h : fields.length ≤ cols.length) :
    ∃ r, moveColumns2First fields cols = some r ∧ r.length = cols.length := by
  obtain ⟨r, hr⟩ := moveOuter_total fields cols.length 0 cols (by omega) h
  exact ⟨r, hr, moveOuter_length _ _ _ _ _ hr⟩

def named (n : Bytes) : Column := { name := n }

/-- **C31 is false**: with columns `a`, `b` and primary key `b`, the column list becomes `b`, `b`. -/
theorem C31_false : ¬ C31_statement := by
  intro h
  have h1 := h [⟨0, b! "b"⟩] [named (b! "a"), named (b! "b")] (by decide)
  rw [C31_single [named (b! "a"), named (b! "b")] (by decide) ⟨0, b! "b"⟩ 1 (by decide) rfl] at h1
  exact absurd h1 (by decide)

/-- and a composite key of the leading columns is reversed -/
theorem C31_false_composite : ∃ fields cols, KeyOf fields cols ∧ cols.map (·.name) = [b! "a", b! "b", b! "c"] ∧
    fields.map (·.name) = [b! "a", b! "b"] ∧
    (moveColumns2First fields cols).map (·.map (·.name)) = some [b! "b", b! "a", b! "c"] := by
  refine ⟨[⟨0, b! "a"⟩, ⟨1, b! "b"⟩], [named (b! "a"), named (b! "b"), named (b! "c")], by decide, rfl, rfl, ?_⟩
  rw [C31_leading _ (by decide) _ 2 (by decide) rfl]
  decide

example : moveColumns2First [⟨0, b! "a"⟩] [named (b! "a"), named (b! "b"), named (b! "c")] =
    some [named (b! "a"), named (b! "b"), named (b! "c")] := by
  rw [C31_first_column_partial (named (b! "a")) [named (b! "b"), named (b! "c")] (by decide) ⟨0, b! "a"⟩ rfl]
  decide

/-! ## C30 -/

/-- what loading does with the columns of one table: `movePrimaryKeyFirst`, then `addInternalColumns` -/
def arrange (id : Nat) (t : Table) : Option (List Column) :=
  (movePrimaryTable t.indexes t.columns).bind (addInternalTable id t.indexes)

theorem mapTables_get (f : Nat → Table → Option Table) (m r : TableMap) (h : mapTables f m = some r) (id : Nat) :
    r.get? id = (m.get? id).bind (f id) := by
  induction m generalizing r with
  | nil => injection h with h; subst h; rfl
  | cons e m ih =>
    unfold mapTables at h
    cases h1 : f e.1 e.2 with
    | none => rw [h1] at h; cases h
    | some t =>
      cases h2 : mapTables f m with
      | none => rw [h1, h2] at h; cases h
      | some rest =>
        rw [h1, h2] at h
        injection h with h
        subst h
        rw [GoMap.get?_cons, GoMap.get?_cons, ih rest h2]
        dsimp only
        by_cases hk : id = e.1
        · rw [if_pos hk, if_pos hk, hk, Option.bind_some, h1]
        · rw [if_neg hk, if_neg hk]

/-- loading arranges the columns of every table by itself, whatever the order of the tables -/
theorem C30_each_table (tables t1 t2 : TableMap) (h1 : movePrimaryKeyFirst (sortColumns tables) = some t1)
    (h2 : addInternalColumns t1 = some t2) (id : Nat) :
    t2.get? id = (tables.get? id).bind fun t => (arrange id t).map fun cols => { t with columns := cols } := by
  unfold movePrimaryKeyFirst sortColumns at h1
  unfold addInternalColumns at h2
  rw [mapTables_get _ _ _ h2, mapTables_get _ _ _ h1]
  cases tables.get? id with
  | none => rfl
  | some t =>
    simp only [Option.bind_some]
    unfold arrange
    cases movePrimaryTable t.indexes t.columns with
    | none => rfl
    | some cols =>
      show (addInternalTable id t.indexes cols).bind _ = _
      simp only [Option.bind_some]
      cases addInternalTable id t.indexes cols <;> rfl

/-- **C30**, as stated: a table with a primary key gets the transaction columns directly after the key columns, one with a
generated clustered index gets the three hidden columns in front; the user columns are those of the table, in the order of
the clustered index. -/
def C30_statement : Prop :=
  ∀ (id : Nat) (t : Table) (l m : List (Nat × Index)) (e : Nat × Index), t.indexes = l ++ e :: m →
    (∀ x ∈ l, PlainIndex x.2) → (∀ x ∈ m, PlainIndex x.2) →
    (e.2.name = b! "PRIMARY" → KeyOf e.2.fields t.columns → e.2.fieldNum = e.2.fields.length →
      arrange id t = some (((clusteredOrder e.2.fields t.columns).take e.2.fieldNum) ++
        [trxColumn id e.2.fieldNum, rollColumn id (e.2.fieldNum + 1)] ++
        (clusteredOrder e.2.fields t.columns).drop e.2.fieldNum)) ∧
    (e.2.name = b! "GEN_CLUST_INDEX" → arrange id t = some ([rowIdColumn id, trxColumn id 1, rollColumn id 2] ++ t.columns))

/-- **C30** for a generated clustered index, and for what `addInternalColumns` does on its own: wherever the index stands in
the iteration order, the two columns come after the first `fieldNum` columns, the others keep their order. -/
theorem C30_generated (id : Nat) (t : Table) (l m : List (Nat × Index)) (e : Nat × Index) (ht : t.indexes = l ++ e :: m)
    (hl : ∀ x ∈ l, PlainIndex x.2) (hm : ∀ x ∈ m, PlainIndex x.2) (he : e.2.name = b! "GEN_CLUST_INDEX") :
    arrange id t = some ([rowIdColumn id, trxColumn id 1, rollColumn id 2] ++ t.columns) := by
  unfold arrange
  rw [ht, movePrimaryTable_none _ _ ?_, Option.bind_some, addInternalTable_generated id l m e _ hl hm he]
  intro x hx
  rcases List.mem_append.mp hx with hx | hx
  · exact (hl x hx).1
  · rcases List.mem_cons.mp hx with hx | hx
    · rw [hx, he]; decide
    · exact (hm x hx).1

theorem C30_insertion (id : Nat) (l m : List (Nat × Index)) (e : Nat × Index) (cols : List Column)
    (hl : ∀ x ∈ l, PlainIndex x.2) (hm : ∀ x ∈ m, PlainIndex x.2) (he : e.2.name = b! "PRIMARY")
    (hn : e.2.fieldNum ≤ cols.length) :
    addInternalTable id (l ++ e :: m) cols = some (cols.take e.2.fieldNum ++
      [trxColumn id e.2.fieldNum, rollColumn id (e.2.fieldNum + 1)] ++ cols.drop e.2.fieldNum) :=
  addInternalTable_primary id l m e cols hl hm he hn

/-- an index with more fields than the table has columns makes loading abort -/
theorem C30_panics (id : Nat) (l m : List (Nat × Index)) (e : Nat × Index) (cols : List Column)
    (hl : ∀ x ∈ l, PlainIndex x.2) (he : e.2.name = b! "PRIMARY") (hn : cols.length < e.2.fieldNum) :
    addInternalTable id (l ++ e :: m) cols = none := addInternalTable_primary_panics id l m e cols hl he hn

/-- the user columns keep their relative order: without the three added ones the list is as before -/
theorem C30_user_columns (id : Nat) (l m : List (Nat × Index)) (e : Nat × Index) (cols r : List Column)
    (hl : ∀ x ∈ l, PlainIndex x.2) (hm : ∀ x ∈ m, PlainIndex x.2) (he : ¬ PlainIndex e.2)
    (hu : ∀ c ∈ cols, isInternal c.name = false) (h : addInternalTable id (l ++ e :: m) cols = some r) :
    r.filter (fun c => !isInternal c.name) = cols := by
  have hf : ∀ k : List Column, (∀ c ∈ k, isInternal c.name = false) → k.filter (fun c => !isInternal c.name) = k := by
    intro k hk
    rw [List.filter_eq_self]
    intro a ha
    rw [hk a ha]; rfl
  by_cases hp : e.2.name = b! "PRIMARY"
  · by_cases hn : e.2.fieldNum ≤ cols.length
    · rw [addInternalTable_primary id l m e cols hl hm hp hn] at h
      injection h with h
      subst h
      rw [List.filter_append, List.filter_append, hf _ fun c hc => hu c (List.mem_of_mem_take hc),
        hf _ fun c hc => hu c (List.mem_of_mem_drop hc)]
      rw [show ([trxColumn id e.2.fieldNum, rollColumn id (e.2.fieldNum + 1)].filter fun c => !isInternal c.name) = [] from rfl,
        List.append_nil, List.take_append_drop]
    · rw [addInternalTable_primary_panics id l m e cols hl hp (by omega)] at h; cases h
  · have hg : e.2.name = b! "GEN_CLUST_INDEX" := by
      by_cases hg : e.2.name = b! "GEN_CLUST_INDEX"
      · exact hg
      · exact absurd ⟨hp, hg⟩ he
    rw [addInternalTable_generated id l m e cols hl hm hg] at h
    injection h with h
    subst h
    rw [List.filter_append, hf _ hu]
    rfl

/-- **C30** for a primary key that is the first column of the table -/
theorem C30_first_column_partial (id : Nat) (t : Table) (l m : List (Nat × Index)) (e : Nat × Index)
    (ht : t.indexes = l ++ e :: m) (hl : ∀ x ∈ l, PlainIndex x.2) (hm : ∀ x ∈ m, PlainIndex x.2)
    (he : e.2.name = b! "PRIMARY") (f : IdxField) (hfs : e.2.fields = [f]) (hn : e.2.fieldNum = 1) (c : Column)
    (cols : List Column) (hc : t.columns = c :: cols) (hf : f.name = c.name) (hd : ((c :: cols).map (·.name)).Nodup) :
    arrange id t = some ((clusteredOrder [f] t.columns).take 1 ++ [trxColumn id 1, rollColumn id 2] ++
      (clusteredOrder [f] t.columns).drop 1) := by
  unfold arrange
  rw [ht, movePrimaryTable_one l m e _ (fun x hx => (hl x hx).1) (fun x hx => (hm x hx).1) he, hfs, hc,
    C31_first_column_partial c cols hd f hf, Option.bind_some, addInternalTable_primary id l m e _ hl hm he ?_, hn]
  rw [hn]
  obtain ⟨r, h1, h2⟩ := C31_total [f] (c :: cols) (by simp)
  rw [C31_first_column_partial c cols hd f hf] at h1
  injection h1 with h1
  rw [h1, h2]
  simp

/-- **C30 is false**: with columns `a`, `b` and primary key `b`, user column `a` is lost. -/
theorem C30_false : ¬ C30_statement := by
  intro h
  let ix : Index := { id := 20, name := b! "PRIMARY", fieldNum := 1, indexType := 3, fields := [⟨0, b! "b"⟩] }
  let t : Table := { columns := [named (b! "a"), named (b! "b")], indexes := [(20, ix)] }
  have h1 := (h 13 t [] [] (20, ix) rfl (by simp) (by simp)).1 rfl (by decide) rfl
  unfold arrange at h1
  rw [show t.indexes = [] ++ (20, ix) :: [] from rfl, movePrimaryTable_one [] [] (20, ix) _ (by simp) (by simp) rfl,
    C31_single [named (b! "a"), named (b! "b")] (by decide) ⟨0, b! "b"⟩ 1 (by decide) rfl, Option.bind_some,
    addInternalTable_primary 13 [] [] (20, ix) _ (by simp) (by simp) rfl (by decide)] at h1
  exact absurd h1 (by decide)

example : arrange 13 { columns := [named (b! "a"), named (b! "b")], indexes := [(21, { id := 21, name := b! "k", fieldNum := 1, indexType := 0 }),
      (20, { id := 20, name := b! "PRIMARY", fieldNum := 1, indexType := 3, fields := [⟨0, b! "a"⟩] })] } =
    some [named (b! "a"), trxColumn 13 1, rollColumn 13 2, named (b! "b")] := by
  rw [C30_first_column_partial 13 _ [(21, { id := 21, name := b! "k", fieldNum := 1, indexType := 0 })] [] (20, { id := 20, name := b! "PRIMARY", fieldNum := 1, indexType := 3, fields := [⟨0, b! "a"⟩] })
    rfl (by unfold PlainIndex; decide) (by simp) rfl ⟨0, b! "a"⟩ rfl rfl (named (b! "a")) [named (b! "b")] rfl rfl (by decide)]
  decide

/-! ## C32 -/

/-- the four root pages named in the dictionary header -/
def roots (sp : SysHeader) : List Nat := [sp.tables, sp.columns, sp.indexes, sp.fields]

/-- what is kept of a page -/
def entryOf (d : Bytes) : DataDict := ⟨field d PAGE_INDEX_ID, pageNumber d, d⟩

/-- C32, the step that collects the pages: if the roots of the four tables are in the file, every page of their indexes is kept for decoding -/
def collect_statement : Prop :=
  ∀ (sp : SysHeader) (images : List Bytes), (∀ d ∈ images, d.length = pageSize) →
    ∀ root ∈ images, pageNumber root ∈ roots sp →
      ∃ D, collectPages sp (images.map rawPage) [] = some D ∧ ∀ d ∈ images, field d PAGE_INDEX_ID = field root PAGE_INDEX_ID →
        entryOf d ∈ (D.get? (field root PAGE_INDEX_ID)).getD []

/-- one page -/
def keepPage (sp : SysHeader) (D : GoMap (List DataDict)) (d : Bytes) : GoMap (List DataDict) :=
  if pageNumber d ∈ roots sp then D.put (field d PAGE_INDEX_ID) [entryOf d]
  else match D.get? (field d PAGE_INDEX_ID) with
    | some ds => D.put (field d PAGE_INDEX_ID) (ds ++ [entryOf d])
    | none => D

theorem collectPages_eq (sp : SysHeader) (images : List Bytes) (h : ∀ d ∈ images, d.length = pageSize) (D : GoMap (List DataDict)) :
    collectPages sp (images.map rawPage) D = some (images.foldl (keepPage sp) D) := by
  induction images generalizing D with
  | nil => rfl
  | cons d ds ih =>
    have h74 : 74 ≤ d.length := by rw [h d (by simp)]; decide
    have ih := ih fun x hx => h x (by simp [hx])
    rw [List.map_cons, collectPages, parsePageHeader_eq d h74, List.foldl_cons]
    have e1 : (rawPage d).fh.offset = pageNumber d := rfl
    have e2 : (rawPage d).ph.indexId = field d PAGE_INDEX_ID := rfl
    have e3 : (⟨(rawPage d).ph.indexId, (rawPage d).fh.offset, (rawPage d).orig⟩ : DataDict) = entryOf d := rfl
    rw [e3, e1, e2]
    unfold keepPage
    have e4 : (pageNumber d = sp.tables ∨ pageNumber d = sp.columns ∨ pageNumber d = sp.indexes ∨ pageNumber d = sp.fields) ↔
        pageNumber d ∈ roots sp := by simp [roots]
    by_cases hr : pageNumber d ∈ roots sp
    · rw [if_pos (e4.mpr hr), if_pos hr]
      exact ih _
    · rw [if_neg (fun hh => hr (e4.mp hh)), if_neg hr]
      cases D.get? (field d PAGE_INDEX_ID) with
      | none => exact ih _
      | some ds => exact ih _

theorem keepPage_get (sp : SysHeader) (D : GoMap (List DataDict)) (d : Bytes) (x : Nat) :
    (keepPage sp D d).get? x = if field d PAGE_INDEX_ID = x then
      (if pageNumber d ∈ roots sp then some [entryOf d] else (D.get? x).map (· ++ [entryOf d])) else D.get? x := by
  unfold keepPage
  by_cases hx : field d PAGE_INDEX_ID = x
  · rw [if_pos hx, hx]
    by_cases hr : pageNumber d ∈ roots sp
    · rw [if_pos hr, if_pos hr, GoMap.get?_put, if_pos rfl]
    · rw [if_neg hr, if_neg hr]
      cases hd : D.get? x with
      | none => exact hd
      | some ds => dsimp only; rw [GoMap.get?_put, if_pos rfl]; rfl
  · rw [if_neg hx]
    by_cases hr : pageNumber d ∈ roots sp
    · rw [if_pos hr, GoMap.get?_put, if_neg (fun e => hx e.symm)]
    · rw [if_neg hr]
      cases hd : D.get? (field d PAGE_INDEX_ID) with
      | none => rfl
      | some ds => dsimp only; rw [GoMap.get?_put, if_neg (fun e => hx e.symm)]

theorem keepPages_other (sp : SysHeader) (images : List Bytes) (D : GoMap (List DataDict)) (x : Nat)
    (h : ∀ d ∈ images, field d PAGE_INDEX_ID ≠ x) : (images.foldl (keepPage sp) D).get? x = D.get? x := by
  induction images generalizing D with
  | nil => rfl
  | cons d ds ih =>
    rw [List.foldl_cons, ih _ fun y hy => h y (by simp [hy]), keepPage_get, if_neg (h d (by simp))]

theorem keepPages_append (sp : SysHeader) (images : List Bytes) (D : GoMap (List DataDict)) (x : Nat) (ds : List DataDict)
    (hD : D.get? x = some ds) (h : ∀ d ∈ images, field d PAGE_INDEX_ID = x → pageNumber d ∉ roots sp) :
    (images.foldl (keepPage sp) D).get? x = some (ds ++ (images.filter fun d => field d PAGE_INDEX_ID == x).map entryOf) := by
  induction images generalizing D ds with
  | nil => rw [List.foldl_nil, hD]; simp
  | cons d im ih =>
    rw [List.foldl_cons]
    by_cases hx : field d PAGE_INDEX_ID = x
    · rw [ih (keepPage sp D d) (ds ++ [entryOf d]) ?_ fun y hy => h y (by simp [hy])]
      · rw [List.filter_cons_of_pos (by simp [hx]), List.map_cons, List.append_assoc]; rfl
      · rw [keepPage_get, if_pos hx, if_neg (h d (by simp) hx), hD]; rfl
    · rw [ih (keepPage sp D d) ds ?_ fun y hy => h y (by simp [hy])]
      · rw [List.filter_cons_of_neg (by simp [hx])]
      · rw [keepPage_get, if_neg hx, hD]

theorem keepPages_none (sp : SysHeader) (images : List Bytes) (D : GoMap (List DataDict)) (x : Nat) (hD : D.get? x = none)
    (h : ∀ d ∈ images, field d PAGE_INDEX_ID = x → pageNumber d ∉ roots sp) :
    (images.foldl (keepPage sp) D).get? x = none := by
  induction images generalizing D with
  | nil => exact hD
  | cons d im ih =>
    rw [List.foldl_cons]
    apply ih _ ?_ fun y hy => h y (by simp [hy])
    rw [keepPage_get]
    split
    · rename_i hx
      rw [if_neg (h d (by simp) hx), hD]; rfl
    · exact hD

/-- Exactly the pages of the index from its root page on are kept, in file order. -/
theorem C32_from_root (sp : SysHeader) (pre post : List Bytes) (root : Bytes)
    (h : ∀ d ∈ pre ++ root :: post, d.length = pageSize) (hr : pageNumber root ∈ roots sp)
    (hpost : ∀ d ∈ post, field d PAGE_INDEX_ID = field root PAGE_INDEX_ID → pageNumber d ∉ roots sp) :
    ∃ D, collectPages sp ((pre ++ root :: post).map rawPage) [] = some D ∧
      D.get? (field root PAGE_INDEX_ID) =
        some ((root :: post.filter fun d => field d PAGE_INDEX_ID == field root PAGE_INDEX_ID).map entryOf) := by
  refine ⟨_, collectPages_eq sp _ h [], ?_⟩
  rw [List.foldl_append, List.foldl_cons, keepPages_append sp post _ (field root PAGE_INDEX_ID) [entryOf root] ?_ hpost]
  · rfl
  · rw [keepPage_get, if_pos rfl, if_pos hr]

/-- **C32**, for files in which the root page comes before the other pages of its index. -/
theorem C32_pages_partial (sp : SysHeader) (pre post : List Bytes) (root : Bytes)
    (h : ∀ d ∈ pre ++ root :: post, d.length = pageSize) (hr : pageNumber root ∈ roots sp)
    (hpre : ∀ d ∈ pre, field d PAGE_INDEX_ID ≠ field root PAGE_INDEX_ID)
    (hpost : ∀ d ∈ post, field d PAGE_INDEX_ID = field root PAGE_INDEX_ID → pageNumber d ∉ roots sp) :
    ∃ D, collectPages sp ((pre ++ root :: post).map rawPage) [] = some D ∧
      D.get? (field root PAGE_INDEX_ID) =
        some (((pre ++ root :: post).filter fun d => field d PAGE_INDEX_ID == field root PAGE_INDEX_ID).map entryOf) := by
  obtain ⟨D, h1, h2⟩ := C32_from_root sp pre post root h hr hpost
  refine ⟨D, h1, ?_⟩
  rw [h2, List.filter_append, List.filter_cons_of_pos (by simp),
    (List.filter_eq_nil_iff (l := pre) (p := fun d => field d PAGE_INDEX_ID == field root PAGE_INDEX_ID)).mpr ?_, List.nil_append]
  intro d hd
  simpa using hpre d hd

/-- the roots are the ones named by the page numbered 7 -/
theorem C32_header (pre post : List Bytes) (d : Bytes) (h90 : 90 ≤ d.length) (hd : pageNumber d = 7)
    (hpre : ∀ x ∈ pre, pageNumber x ≠ 7) :
    ∃ sp, findSysHeader ((pre ++ d :: post).map rawPage) = some sp ∧ sp.tables = field d DICT_HDR_TABLES ∧
      sp.columns = field d DICT_HDR_COLUMNS ∧ sp.indexes = field d DICT_HDR_INDEXES ∧ sp.fields = field d DICT_HDR_FIELDS := by
  induction pre with
  | nil =>
    rw [List.nil_append, List.map_cons, findSysHeader, if_pos (show (rawPage d).fh.offset = SystemPageIdx from hd),
      parseSysPageHeader_eq d h90]
    exact ⟨_, rfl, rfl, rfl, rfl, rfl⟩
  | cons x pre ih =>
    rw [List.cons_append, List.map_cons, findSysHeader, if_neg (show ¬ (rawPage x).fh.offset = SystemPageIdx from hpre x (by simp))]
    exact ih fun y hy => hpre y (by simp [hy])

/-- without its root page nothing of an index is kept -/
theorem C32_no_root (sp : SysHeader) (images : List Bytes) (h : ∀ d ∈ images, d.length = pageSize) (x : Nat)
    (hx : ∀ d ∈ images, field d PAGE_INDEX_ID = x → pageNumber d ∉ roots sp) :
    ∃ D, collectPages sp (images.map rawPage) [] = some D ∧ D.get? x = none :=
  ⟨_, collectPages_eq sp _ h [], keepPages_none sp images [] x rfl hx⟩

/-- an empty page with a number and an index id -/
def bare (n id : Nat) : Bytes := poke (poke blank 4 (beEnc 4 n)) 66 (beEnc 8 id)

theorem bare_len1 (n : Nat) : (poke blank 4 (beEnc 4 n)).length = 16384 := by
  rw [poke_length _ _ _ (by rw [blank_length, beEnc_length']; omega), blank_length]

theorem bare_length (n id : Nat) : (bare n id).length = pageSize := by
  unfold bare
  rw [poke_length _ _ _ (by rw [bare_len1, beEnc_length']; omega), bare_len1]; rfl

theorem bare_number (n id : Nat) (h : n < 2 ^ 32) : pageNumber (bare n id) = n := by
  show numAt (bare n id) 4 4 = n
  rw [numAt_sub]
  unfold bare
  rw [sub_poke_before _ _ _ _ _ (by omega) (by rw [bare_len1]; omega), sub_poke _ _ _ (by rw [blank_length]; omega) 4 (beEnc_length' _ _).symm,
    beVal_beEnc (w := 4) h]

theorem bare_index (n id : Nat) (h : id < 2 ^ 64) : field (bare n id) PAGE_INDEX_ID = id := by
  show numAt (bare n id) 66 8 = id
  rw [numAt_sub]
  unfold bare
  rw [sub_poke _ _ _ (by rw [bare_len1]; omega) 8 (beEnc_length' _ _).symm, beVal_beEnc (w := 8) h]

def header8 : SysHeader := { tables := 8, tableIds := 0, columns := 10, indexes := 11, fields := 12 }

theorem bares_length (l : List (Nat × Nat)) : ∀ d ∈ l.map (fun e => bare e.1 e.2), d.length = pageSize := by
  intro d hd
  obtain ⟨e, _, rfl⟩ := List.mem_map.mp hd
  exact bare_length _ _

/-- **C32, one step**: a page of SYS_TABLES (index id 1) that comes before the root page is dropped. -/
theorem collect_false : ¬ collect_statement := by
  intro h
  have hn : pageNumber (bare 8 1) ∈ roots header8 := by rw [bare_number 8 1 (by decide)]; decide
  obtain ⟨D, h1, h2⟩ := h header8 [bare 2 1, bare 8 1] (bares_length [(2, 1), (8, 1)]) (bare 8 1) (by simp) hn
  obtain ⟨D', h1', h2'⟩ := C32_from_root header8 [bare 2 1] [] (bare 8 1) (bares_length [(2, 1), (8, 1)]) hn (by simp)
  have e : D = D' := by
    rw [show [bare 2 1] ++ bare 8 1 :: [] = [bare 2 1, bare 8 1] from rfl, h1] at h1'
    injection h1'
  have h3 := h2 (bare 2 1) (by simp) (by rw [bare_index 2 1 (by decide), bare_index 8 1 (by decide)])
  rw [e, h2', Option.getD_some, List.filter_nil, List.map_singleton, List.mem_singleton] at h3
  have h4 := congrArg DataDict.pageOffset h3
  have h5 : pageNumber (bare 2 1) = pageNumber (bare 8 1) := h4
  rw [bare_number 2 1 (by decide), bare_number 8 1 (by decide)] at h5
  cases h5

/-- non-vacuity: pages of two indexes, mixed -/
example : ∃ D, collectPages header8 ([bare 10 2, bare 8 1, bare 20 2, bare 21 1].map rawPage) [] = some D ∧
    D.get? 1 = some ([bare 8 1, bare 21 1].map entryOf) := by
  have hn : pageNumber (bare 8 1) ∈ roots header8 := by rw [bare_number 8 1 (by decide)]; decide
  have hi : ∀ n i, i < 2 ^ 64 → field (bare n i) PAGE_INDEX_ID = i := bare_index
  obtain ⟨D, h1, h2⟩ := C32_pages_partial header8 [bare 10 2] [bare 20 2, bare 21 1] (bare 8 1)
    (bares_length [(10, 2), (8, 1), (20, 2), (21, 1)]) hn
    (by intro d hd; rw [List.mem_singleton] at hd; rw [hd, hi 10 2 (by decide), hi 8 1 (by decide)]; decide)
    (by
      intro d hd _
      rcases List.mem_cons.mp hd with rfl | hd
      · rw [bare_number 20 2 (by decide)]; decide
      · rw [List.mem_singleton] at hd
        rw [hd, bare_number 21 1 (by decide)]; decide)
  refine ⟨D, h1, ?_⟩
  rw [hi 8 1 (by decide)] at h2
  rw [h2]
  simp only [List.cons_append, List.nil_append, List.filter_cons, List.filter_nil, hi 10 2 (by decide), hi 8 1 (by decide),
    hi 20 2 (by decide), hi 21 1 (by decide)]
  rfl

end Verif.Props
