import Verif.Props.Enum
/-!
# C100: the hidden column of tables with FULLTEXT indexes

To a table with a FULLTEXT index InnoDB adds a column FTS_DOC_ID, unless the user has defined one with this name.  It is recorded in SYS_COLUMNS and
stored in every record, but it is not a column of the table for a statement.
-/

set_option linter.unusedSimpArgs false

namespace Verif.Props
open Verif Spec

/-- The column that InnoDB has added: it has the type DATA_FTS_DOC_ID, which is 3, where a column of the user has the type of MySQL, which is 8. -/
def isDocId (r : ColumnRow) : Bool := r.name == b! "FTS_DOC_ID" && r.prtype % 256 == 3

/-- the values of a stored row that belong to columns of the user -/
def visible (crs : List ColumnRow) (id : Nat) (row : List (Option TVal)) : List (Option TVal) :=
  ((crs.filter (·.tableId == id)).zip row).filterMap fun x => if isDocId x.1 then none else some x.2

/-- **C100**, as stated: of a table whose rows are printed (C57), the values of the columns of the user are printed. -/
def C100_statement : Prop :=
  ∀ (env : Env) (a : FromData) (sys ibd : Bytes) (trs : List TableRow) (crs : List ColumnRow)
    (irs : List IndexRow) (frs : List FieldRow) (t : TableRow) (r : IndexRow) (l : List Column) (defs : List ColDef) (deleted : Bool)
    (rows : List (List (Option TVal))), PrintableFile env a sys ibd trs crs irs frs t r l defs deleted rows →
    TableFile env ibd r.id (columnsOf crs t.id) l defs deleted rows → a.tableFile = .ok ibd →
    ∀ out, ∃ lines, fromDataFile env a out = .ok () (out ++ lines) ∧ All2 (Printed env.ff a.db a.table) lines (rows.map (visible crs t.id))

theorem visible_pairs (rs : List ColumnRow) (row : List (Option TVal)) (h : rs.length = row.length) :
    ((rs.zip row).filterMap fun x => if isDocId x.1 then none else some x.2).length = (rs.filter fun r => !isDocId r).length ∧
    ((∀ r ∈ rs, isDocId r = false) → ((rs.zip row).filterMap fun x => if isDocId x.1 then none else some x.2) = row) := by
  induction rs generalizing row with
  | nil =>
    cases row with
    | nil => exact ⟨rfl, fun _ => rfl⟩
    | cons _ _ => cases h
  | cons r rs ih =>
    cases row with
    | nil => cases h
    | cons x row =>
      obtain ⟨h1, h2⟩ := ih row (by simpa using h)
      rw [List.zip_cons_cons]
      cases hr : isDocId r with
      | true =>
        refine ⟨?_, fun h => ?_⟩
        · rw [List.filterMap_cons_none (by simp [hr]), List.filter_cons_of_neg (by simp [hr]), h1]
        · rw [h r (by simp)] at hr
          cases hr
      | false =>
        refine ⟨?_, fun h => ?_⟩
        · rw [List.filterMap_cons_some (b := x) (by simp [hr]), List.filter_cons_of_pos (by simp [hr]), List.length_cons, List.length_cons, h1]
        · rw [List.filterMap_cons_some (b := x) (by simp [hr]), h2 fun r hr => h r (by simp [hr])]

/-- the values of two rows that a line is printed for are as many -/
theorem printed_rows_length {ff : FloatFmt} {db table line : Bytes} {row row' : List (Option TVal)} (h : Printed ff db table line row)
    (h' : Printed ff db table line row') : row.length = row'.length := by
  obtain ⟨vs, h1, h2⟩ := h
  obtain ⟨vs', h1', h2'⟩ := h'
  rw [h1] at h1'
  injection h1' with h1'
  injection h1' with _ _ h1'
  subst h1'
  have h3 := all2_length h2
  have h4 := all2_length h2'
  rw [List.length_map] at h3 h4
  omega

/-- **C100, exactly.** A line gives the values of the columns of the user if and only if the table has no hidden column. -/
theorem C100_iff (env : Env) (a : FromData) (sys ibd : Bytes) (trs : List TableRow) (crs : List ColumnRow)
    (irs : List IndexRow) (frs : List FieldRow) (t : TableRow) (r : IndexRow) (l : List Column) (defs : List ColDef) (deleted : Bool)
    (rows : List (List (Option TVal))) (hp : PrintableFile env a sys ibd trs crs irs frs t r l defs deleted rows)
    (hf : TableFile env ibd r.id (columnsOf crs t.id) l defs deleted rows) (hibd : a.tableFile = .ok ibd) (out : Out) :
    ∃ lines, fromDataFile env a out = .ok () (out ++ lines) ∧ lines.length = rows.length ∧
      All2 (fun line row => Printed env.ff a.db a.table line (visible crs t.id row) ↔ ∀ c ∈ crs, c.tableId = t.id → isDocId c = false) lines rows := by
  obtain ⟨lines, h1, h2⟩ := C57_command_partial env a sys ibd trs crs irs frs t r l defs deleted rows hp.sysFile hibd hp.dict hp.table hp.name hp.layout hf
    hp.op hp.keys hp.handled hp.mark hp.compact hp.redundant hp.values hp.db hp.tab out
  refine ⟨lines, h1, all2_length h2, ?_⟩
  have hv := hp.values
  clear h1 hf hp hibd
  induction h2 with
  | nil => exact .nil
  | @cons line row lines rows hd _ ih =>
    refine .cons ?_ (ih fun row hrow => hv row (by simp [hrow]))
    have hlen : (crs.filter (·.tableId == t.id)).length = row.length := by
      have := all2_length (hv row (by simp))
      rwa [columnsOf, List.length_map] at this
    obtain ⟨h3, h4⟩ := visible_pairs _ row hlen
    constructor
    · intro h c hc htid
      have h5 := printed_rows_length h hd
      unfold visible at h5
      rw [h3, ← hlen] at h5
      have h6 := List.length_filter_eq_length_iff.mp h5 c (List.mem_filter.mpr ⟨hc, by simp [htid]⟩)
      simpa using h6
    · intro h
      have : visible crs t.id row = row := h4 fun c hc => by
        obtain ⟨hc, htid⟩ := List.mem_filter.mp hc
        exact h c hc (by simpa using htid)
      rw [this]
      exact hd

/-- **C100 (partial).** For tables without the hidden column.  Missing: tables with it, of which no row is printed (`C100_iff`, `C100_false`). -/
theorem C100_none_partial (env : Env) (a : FromData) (sys ibd : Bytes) (trs : List TableRow) (crs : List ColumnRow)
    (irs : List IndexRow) (frs : List FieldRow) (t : TableRow) (r : IndexRow) (l : List Column) (defs : List ColDef) (deleted : Bool)
    (rows : List (List (Option TVal))) (hp : PrintableFile env a sys ibd trs crs irs frs t r l defs deleted rows)
    (hf : TableFile env ibd r.id (columnsOf crs t.id) l defs deleted rows) (hibd : a.tableFile = .ok ibd)
    (hno : ∀ c ∈ crs, c.tableId = t.id → isDocId c = false) (out : Out) :
    ∃ lines, fromDataFile env a out = .ok () (out ++ lines) ∧ All2 (Printed env.ff a.db a.table) lines (rows.map (visible crs t.id)) := by
  obtain ⟨lines, h1, hl, h2⟩ := C100_iff env a sys ibd trs crs irs frs t r l defs deleted rows hp hf hibd out
  refine ⟨lines, h1, ?_⟩
  clear h1 hl hp hf
  induction h2 with
  | nil => exact .nil
  | cons h _ ih => exact .cons (h.mpr hno) ih

/-! ### A table with a FULLTEXT index

`CREATE TABLE shop.t (id INT PRIMARY KEY, name VARCHAR(30) NOT NULL, FULLTEXT KEY words (name))`, with one row. -/

def textColumns : List ColumnRow :=
  [⟨20, 0, b! "id", 6, 1283, 4⟩, ⟨20, 1, b! "name", 12, 2162959, 30⟩, ⟨20, 2, b! "FTS_DOC_ID", 6, 1795, 8⟩]
def textIndexes : List IndexRow :=
  [⟨20, 30, b! "PRIMARY", 1, 3⟩, ⟨20, 31, b! "FTS_DOC_ID_INDEX", 1, 2⟩, ⟨20, 32, b! "words", 1, 32⟩]
def textFields : List FieldRow := [⟨30, 0, b! "id"⟩, ⟨31, 0, b! "FTS_DOC_ID"⟩, ⟨32, 0, b! "name"⟩]
def textName : Column := { name := b! "name", ftype := 12, mtype := 15, pos := 1, len := 30, isNull := false, tableId := 20 }
def docColumn : Column :=
  { name := b! "FTS_DOC_ID", ftype := 6, mtype := 3, pos := 2, len := 8, isNull := false, isUnsigned := true, tableId := 20 }
def textLayout : List Column := [shopId, trxColumn 20 1, rollColumn 20 2, textName, docColumn]
def textDefs : List ColDef :=
  [⟨.int 4, false⟩, ⟨.system 6, false⟩, ⟨.system 7, false⟩, ⟨.varchar 30, false⟩, ⟨.int 8, false⟩]
def textRow : List (Option TVal) := [some (.int 4 7), some (.varchar (b! "ann")), some (.uint 8 1)]
def textCells : List Cell :=
  [cellOfVal (some (.int 4 7)), .val (zeros 6), .val (zeros 7), cellOfVal (some (.varchar (b! "ann"))), cellOfVal (some (.uint 8 1))]
def textSys : Bytes := writeSystem shopTables textColumns textIndexes textFields
def textData : Bytes := writeTable 30 textDefs [textCells] []
def textArgs : FromData :=
  { sysFile := .ok textSys, tableFile := .ok textData, db := b! "shop", table := b! "t", opType := b! "RecoveryStruct" }

theorem text_columns : columnsOf textColumns 20 = [shopId, textName, docColumn] := by decide

set_option maxRecDepth 4000 in
theorem text_writable : Writable shopTables textColumns textIndexes textFields :=
  { tables := by decide
    columns := by decide
    indexes := by decide
    fields := by decide
    onTables := by decide
    onColumns := by decide
    onIndexes := by decide
    onFields := by decide }

theorem text_dictionary : Dictionary textSys shopTables textColumns textIndexes textFields where
  file := system_written _ _ _ _ text_writable
  indexes := by decide
  ids := by decide
  names := (shop_dictionary (key := idKey) (.inl rfl)).names

theorem text_file (env : Env) : TableFile env textData 30 (columnsOf textColumns 20) textLayout textDefs false [textRow] :=
  table_written env 30 _ _ _ [textCells] [] false [textRow] (by decide) (by decide) (by decide) (by decide) (by decide) (by decide) (by decide)
    (.cons (by rw [text_columns]; exact .cons ⟨0, rfl, rfl⟩ (.cons ⟨3, rfl, rfl⟩ (.cons ⟨4, rfl, rfl⟩ .nil))) .nil)
    (by
      intro row hrow
      cases List.mem_singleton.mp hrow
      rw [text_columns]
      refine .cons ?_ (.cons ?_ (.cons ?_ .nil))
      · rintro v ⟨⟩
        exact ⟨⟨rfl, by decide, by decide, rfl, rfl⟩, by decide, by decide, by decide⟩
      · rintro v ⟨⟩
        exact ⟨rfl, trivial⟩
      · rintro v ⟨⟩
        exact ⟨⟨rfl, by decide, by decide, rfl, rfl⟩, by decide, by decide⟩)

theorem text_printable (env : Env) : PrintableFile env textArgs textSys textData shopTables textColumns textIndexes textFields
    ⟨b! "shop/t", 20, 5⟩ ⟨20, 30, b! "PRIMARY", 1, 3⟩ textLayout textDefs false [textRow] where
  sysFile := rfl
  dict := text_dictionary
  table := by decide
  name := rfl
  layout := .key (r := ⟨20, 30, b! "PRIMARY", 1, 3⟩) (by decide) (by decide) (by decide) (by decide)
  op := by decide
  keys := by
    intro t ht
    cases List.mem_singleton.mp ht
    exact .inr ⟨⟨20, 30, b! "PRIMARY", 1, 3⟩, by decide, .inr ⟨by decide, by decide, by decide, by decide⟩⟩
  handled := ⟨⟨20, 30, b! "PRIMARY", 1, 3⟩, by decide, by decide, .inr ⟨by decide, by decide, shopId, [textName, docColumn], by decide, by decide⟩⟩
  mark := table_marked 30 textDefs [textCells] [] false (by decide) (by decide)
  compact := fun _ _ _ => by decide
  redundant := fun d hd hc => by
    rw [table_compact 30 textDefs [textCells] [] (by decide) (by decide) false d hd] at hc
    cases hc
  values := by
    intro row hrow
    cases List.mem_singleton.mp hrow
    rw [text_columns]
    exact .cons ⟨trivial, trivial⟩ (.cons ⟨trivial, ⟨by decide, by decide⟩⟩ (.cons ⟨fun h => (nomatch h), trivial⟩ .nil))
  db := show 96 ∉ b! "shop" by decide
  tab := show 96 ∉ b! "t" by decide

/-- The row (7, 'ann') of the table is printed with three values. -/
theorem C100_false : ¬ C100_statement := by
  intro h
  obtain ⟨lines, h1, h2⟩ := h testEnv textArgs _ _ _ _ _ _ _ _ _ _ _ _ (text_printable testEnv) (text_file testEnv) rfl []
  obtain ⟨lines', h1', _, h3⟩ := C100_iff testEnv textArgs _ _ _ _ _ _ _ _ _ _ _ _ (text_printable testEnv) (text_file testEnv) rfl []
  rw [h1] at h1'
  injection h1' with _ h1'
  cases List.append_cancel_left h1'
  cases h2 with
  | cons h2 _ =>
    cases h3 with
    | cons h3 _ =>
      have := h3.mp h2 ⟨20, 2, b! "FTS_DOC_ID", 6, 1795, 8⟩ (by decide) rfl
      revert this
      decide

/-- the hypotheses of `C100_none_partial` hold -/
example (env : Env) (out : Out) : ∃ lines, fromDataFile env enumArgs out = .ok () (out ++ lines) ∧
    All2 (Printed env.ff (b! "shop") (b! "t")) lines [enumRow] :=
  C100_none_partial env enumArgs _ _ _ _ _ _ _ _ _ _ _ _ (enum_printable env) (enum_file env) rfl (by decide) out

end Verif.Props
