import Verif.Props.Names
import Verif.Props.Width
/-!
# C76: virtual generated columns

Since MySQL 5.7 a table can have generated columns whose values are computed when they are read.  They have a row in SYS_COLUMNS, marked with bit
13 of PRTYPE, but the records of the clustered index have no field for them.
-/

set_option linter.unusedSimpArgs false

namespace Verif.Props
open Verif Spec

def DATA_VIRTUAL : Nat := 13

def isVirtual (r : ColumnRow) : Bool := bit r.prtype DATA_VIRTUAL

/-- the columns of a table that its records have fields for -/
def storedOf (crs : List ColumnRow) (id : Nat) : List Column := columnsOf (crs.filter fun r => !isVirtual r) id

/-- the table has a virtual column -/
def HasVirtual (crs : List ColumnRow) (id : Nat) : Prop := ∃ r ∈ crs, r.tableId = id ∧ isVirtual r = true

/-- **C76**, as stated: the command prints the stored rows. -/
def C76_statement : Prop :=
  ∀ (env : Env) (a : FromData) (sys ibd : Bytes) (trs : List TableRow) (crs : List ColumnRow) (irs : List IndexRow) (frs : List FieldRow)
    (t : TableRow) (r : IndexRow) (l : List Column) (defs : List ColDef) (deleted : Bool) (rows : List (List (Option TVal))),
    a.sysFile = .ok sys → a.tableFile = .ok ibd → Dictionary sys trs crs irs frs → t ∈ trs → t.name = a.db ++ b! "/" ++ a.table →
    Layout irs frs t.id (storedOf crs t.id) l → TableFile env ibd r.id (storedOf crs t.id) l defs deleted rows →
    (deleted = true ↔ a.opType = b! "RecoveryData") → (∀ t ∈ trs, UsualKeys irs frs crs t.id) → Handled irs frs crs t.id →
    ((columnsOf crs t.id).map (·.name)).Nodup → (∀ c ∈ columnsOf crs t.id, c.name ∉ internalNames) →
    (∀ c ∈ columnsOf crs t.id, ¬ (c.ftype = DATA_FIXBINARY ∧ c.mtype = MYSQL_TYPE_NEWDECIMAL)) →
    Marked ibd r.id deleted → (∀ d ∈ leafPages ibd r.id deleted, isCompact d = true) → (∀ k ∈ defs, k.kind.Readable) →
    (∀ row ∈ rows, All2 (Restored env.ff) (storedOf crs t.id) row) → 96 ∉ a.db → 96 ∉ a.table →
    ∀ out, ∃ lines, fromDataFile env a out = .ok () (out ++ lines) ∧ All2 (Printed env.ff a.db a.table) lines rows

theorem stored_same {crs : List ColumnRow} {id : Nat} (h : ¬ HasVirtual crs id) : storedOf crs id = columnsOf crs id := by
  unfold storedOf columnsOf
  rw [List.filter_filter]
  congr 1
  refine List.filter_congr fun r hr => ?_
  cases hi : r.tableId == id with
  | false => rfl
  | true =>
    cases hv : isVirtual r with
    | false => rfl
    | true => exact absurd ⟨r, hr, by simpa using hi, hv⟩ h

theorem stored_fewer {crs : List ColumnRow} {id : Nat} (h : HasVirtual crs id) : (storedOf crs id).length < (columnsOf crs id).length := by
  obtain ⟨r, hr, hi, hv⟩ := h
  unfold storedOf columnsOf
  rw [List.length_map, List.length_map, List.filter_filter]
  induction crs with
  | nil => cases hr
  | cons x crs ih =>
    have hle : ∀ l : List ColumnRow, (l.filter fun a => (a.tableId == id) && !isVirtual a).length ≤ (l.filter (·.tableId == id)).length := by
      intro l
      rw [← List.filter_filter, List.filter_comm]
      exact List.length_filter_le _ _
    rw [List.filter_cons, List.filter_cons]
    rcases List.mem_cons.mp hr with rfl | hr
    · have := hle crs
      simp only [hv, hi, beq_self_eq_true, Bool.not_true, Bool.and_false, Bool.false_eq_true, if_false, if_true, List.length_cons]
      omega
    · have := ih hr
      cases hb : x.tableId == id with
      | false => simpa [hb] using this
      | true =>
        cases hx : isVirtual x with
        | false => simpa [hb, hx] using this
        | true =>
          simp only [hb, hx, Bool.not_true, Bool.and_false, Bool.false_eq_true, if_false, if_true, List.length_cons]
          omega

/-- the order in which the records would be stored if they had all columns of the dictionary -/
theorem full_layout {irs : List IndexRow} {frs : List FieldRow} {crs : List ColumnRow} {id : Nat} (h : Handled irs frs crs id)
    {cols l : List Column} (hl : Layout irs frs id cols l) (hn : ((columnsOf crs id).map (·.name)).Nodup) :
    ∃ l', Layout irs frs id (columnsOf crs id) l' := by
  cases hl with
  | generated h' hi => exact ⟨_, .generated h' hi⟩
  | @key r' h' hi hc hK =>
    obtain ⟨r, hb, hodd, hr⟩ := h
    have : r' = r := by
      rcases h'.2.2.2 r hb.1 hb.2.1 with h | h
      · exact h.symm
      · omega
    subst this
    rcases hr with ⟨_, h0⟩ | ⟨_, _, c, rest, hcs, h1⟩
    · omega
    · refine ⟨_, .key h' hi hc ⟨hn, hK.2.1, fun f hf => ?_⟩⟩
      have := List.mem_map_of_mem (f := (·.name)) hf
      rw [h1] at this
      rw [List.mem_singleton.mp this, hcs]
      simp

/-- What is printed for a handled table: however the run ends, each line is a statement with one value for each column that the dictionary
has for the table, virtual or not. -/
theorem C76_width (env : Env) (a : FromData) (sys ibd : Bytes) (trs : List TableRow) (crs : List ColumnRow) (irs : List IndexRow)
    (frs : List FieldRow) (t : TableRow) (cols l : List Column) (hsys : a.sysFile = .ok sys) (hibd : a.tableFile = .ok ibd)
    (hdict : Dictionary sys trs crs irs frs) (ht : t ∈ trs) (hname : t.name = a.db ++ b! "/" ++ a.table) (hl : Layout irs frs t.id cols l)
    (harr : ∀ t ∈ trs, UsualKeys irs frs crs t.id) (hh : Handled irs frs crs t.id)
    (hnames : ((columnsOf crs t.id).map (·.name)).Nodup ∧ ∀ c ∈ columnsOf crs t.id, c.name ∉ internalNames)
    (hdec : ∀ c ∈ columnsOf crs t.id, ¬ (c.ftype = DATA_FIXBINARY ∧ c.mtype = MYSQL_TYPE_NEWDECIMAL)) (hdb : 96 ∉ a.db) (htab : 96 ∉ a.table)
    (out : Out) : ∃ lines, (fromDataFile env a out).st = out ++ lines ∧
      ∀ line ∈ lines, ∀ r, readReplace line = some r → r.values.length = (columnsOf crs t.id).length := by
  obtain ⟨l', hl'⟩ := full_layout hh hl hnames.1
  obtain ⟨lay, hload, hlay⟩ := loads_arranged env sys trs crs irs frs hdict.file hdict.indexes harr
  obtain ⟨tables, dict, h1, h2, h3⟩ := hload out
  obtain ⟨_, _, _, _, hcols⟩ := loaded_table hdict.ids hdict.names h2 h3 ht hname
  rw [hlay t ht l' (handled_layout hh hl').1] at hcols
  obtain ⟨k1, _, _, k4, _⟩ := handled_stored hh hl' hnames
  obtain ⟨rows, r1, r2⟩ := C37_lines env a.tableFile a.db a.table (a.opType == b! "RecoveryData") ⟨tables, out⟩ (by
    show ∀ c ∈ getTableColumnsFromDict tables a.db a.table, _
    rw [hcols]
    rintro c hc ⟨e1, e2⟩
    by_cases hi : c.name ∈ internalNames
    · rw [(k4 c hc hi).1] at e1
      exact absurd e1 (by decide)
    · refine hdec c ?_ ⟨e1, e2⟩
      rw [← k1]
      exact List.mem_filter.mpr ⟨hc, by simpa using hi⟩)
  change ∀ row ∈ rows, _ = (userColumns (getTableColumnsFromDict tables a.db a.table)).length at r2
  rw [hcols, k1] at r2
  refine ⟨rows.map (replaceStmt env.ff a.db a.table), ?_, ?_⟩
  · rw [← r1]
    unfold fromDataFile
    rw [hsys, h1, hibd]
    dsimp only
    rw [parseDataPage_run]
    cases pagesRun env tables a.db a.table (a.opType == b! "RecoveryData") (selectedPages ibd (a.opType == b! "RecoveryData"))
      ⟨getTableColumnsFromDict tables a.db a.table, out⟩ <;> rfl
  · intro line hline r hr
    obtain ⟨row, hrow, rfl⟩ := List.mem_map.mp hline
    rw [C36_values env.ff a.db a.table row hdb htab r hr, r2 row hrow]

/-- **C76 (partial).** For a table with rows the statement holds if and only if it has no virtual column.  Missing: all tables with
virtual columns (`C76_false`). -/
theorem C76_exact_partial (env : Env) (a : FromData) (sys ibd : Bytes) (trs : List TableRow) (crs : List ColumnRow) (irs : List IndexRow)
    (frs : List FieldRow) (t : TableRow) (r : IndexRow) (l : List Column) (defs : List ColDef) (deleted : Bool) (rows : List (List (Option TVal)))
    (hsys : a.sysFile = .ok sys) (hibd : a.tableFile = .ok ibd) (hdict : Dictionary sys trs crs irs frs) (ht : t ∈ trs)
    (hname : t.name = a.db ++ b! "/" ++ a.table) (hl : Layout irs frs t.id (storedOf crs t.id) l)
    (hfile : TableFile env ibd r.id (storedOf crs t.id) l defs deleted rows) (hop : deleted = true ↔ a.opType = b! "RecoveryData")
    (harr : ∀ t ∈ trs, UsualKeys irs frs crs t.id) (hh : Handled irs frs crs t.id)
    (hnames : ((columnsOf crs t.id).map (·.name)).Nodup ∧ ∀ c ∈ columnsOf crs t.id, c.name ∉ internalNames)
    (hdec : ∀ c ∈ columnsOf crs t.id, ¬ (c.ftype = DATA_FIXBINARY ∧ c.mtype = MYSQL_TYPE_NEWDECIMAL))
    (hmark : Marked ibd r.id deleted) (hcompact : ∀ d ∈ leafPages ibd r.id deleted, isCompact d = true) (hread : ∀ k ∈ defs, k.kind.Readable)
    (hvalues : ∀ row ∈ rows, All2 (Restored env.ff) (storedOf crs t.id) row) (hdb : 96 ∉ a.db) (htab : 96 ∉ a.table) (hne : rows ≠ [])
    (out : Out) :
    (∃ lines, fromDataFile env a out = .ok () (out ++ lines) ∧ All2 (Printed env.ff a.db a.table) lines rows) ↔ ¬ HasVirtual crs t.id := by
  constructor
  · rintro ⟨lines, h1, h2⟩ hv
    obtain ⟨lines', h3, h4⟩ := C76_width env a sys ibd trs crs irs frs t _ l hsys hibd hdict ht hname hl harr hh hnames hdec hdb htab out
    rw [h1] at h3
    cases List.append_cancel_left h3
    cases h2 with
    | nil => exact hne rfl
    | @cons line row ls rs hp _ =>
      obtain ⟨vs, h5, h6⟩ := hp
      have h7 := h4 line (by simp) _ h5
      have h8 := all2_length h6
      have h9 := all2_length (hvalues row (by simp))
      have h10 := stored_fewer hv
      rw [List.length_map] at h8
      dsimp only at h7
      omega
  · intro hv
    rw [stored_same hv] at hl hfile hvalues
    exact C57_command_partial env a sys ibd trs crs irs frs t r l defs deleted rows hsys hibd hdict ht hname hl hfile hop harr hh hmark
      (fun _ _ _ => hread) (fun d hd h => absurd ((hcompact d hd).symm.trans h) (by decide)) hvalues hdb htab out

/-! ## The table with a virtual column

`CREATE TABLE shop.t (id INT PRIMARY KEY, name VARCHAR(10), v INT AS (id + 1) VIRTUAL)`, with the data file of the table of `DictWitness`. -/

/-- the position of a virtual column has its number among the virtual columns, counted from one, in the upper half -/
def virtualRow : ColumnRow := ⟨20, 65536 + 2, b! "v", 6, 8192 + 1024 + 3, 4⟩

def virtualColumns : List ColumnRow := shopColumns ++ [virtualRow]

def virtualFile : Bytes := writeSystem shopTables virtualColumns (shopIndexes idKey) (shopFields idKey)

set_option maxRecDepth 4000 in
theorem virtual_dictionary : Dictionary virtualFile shopTables virtualColumns (shopIndexes idKey) (shopFields idKey) where
  file := system_written _ _ _ _
    { tables := by decide, columns := by decide, indexes := by decide, fields := by decide, onTables := by decide, onColumns := by decide,
      onIndexes := by decide, onFields := by decide }
  indexes := by decide
  ids := by decide
  names := ⟨by decide, fun t ht => by
    cases List.mem_singleton.mp ht
    exact .inr ⟨b! "shop", b! "t", by decide, by decide, by decide, by decide⟩⟩

theorem virtual_stored : storedOf virtualColumns 20 = columnsOf shopColumns 20 := by decide

theorem virtual_handled : ∀ t ∈ shopTables, Handled (shopIndexes idKey) (shopFields idKey) virtualColumns t.id := by
  intro t ht
  cases List.mem_singleton.mp ht
  exact ⟨⟨20, 30, b! "PRIMARY", 1, 3⟩, by decide, by decide, .inr ⟨by decide, by decide, shopId, [shopName, { columnOf virtualRow with isBinary := false }], by decide, by decide⟩⟩

theorem virtual_keys : ∀ t ∈ shopTables, UsualKeys (shopIndexes idKey) (shopFields idKey) virtualColumns t.id := by
  intro t ht
  cases List.mem_singleton.mp ht
  exact .inr ⟨⟨20, 30, b! "PRIMARY", 1, 3⟩, by decide, .inr ⟨by decide, by decide, by decide, by decide⟩⟩

def virtualArgs : FromData :=
  { sysFile := .ok virtualFile, tableFile := .ok (shopData (b! "ann")), db := b! "shop", table := b! "t", opType := b! "RecoveryStruct" }

/-- The hypotheses of `C76_exact_partial` hold. -/
theorem virtual_exact (env : Env) (out : Out) : (∃ lines, fromDataFile env virtualArgs out = .ok () (out ++ lines) ∧
    All2 (Printed env.ff (b! "shop") (b! "t")) lines (shopRows (b! "ann") false)) ↔ ¬ HasVirtual virtualColumns 20 :=
  C76_exact_partial env virtualArgs _ _ _ _ _ _ ⟨b! "shop/t", 20, 5⟩ ⟨20, 30, b! "PRIMARY", 1, 3⟩ _ _ false _ rfl rfl virtual_dictionary
    (List.mem_singleton.mpr rfl) (by decide)
    (by rw [virtual_stored]; exact shop_layout ⟨b! "shop/t", 20, 5⟩ (by decide)) (by rw [virtual_stored]; exact shopData_file env (.inl rfl) false)
    (by decide) virtual_keys (virtual_handled ⟨b! "shop/t", 20, 5⟩ (by decide)) ⟨by decide, by decide⟩ (by decide)
    (shopData_marked (.inl rfl) false) shop_compact (by decide)
    (by rw [virtual_stored]; exact shop_restored env.ff) (by decide) (by decide) (by decide) out

/-- C76 is false of the code. -/
theorem C76_false : ¬ C76_statement := by
  intro h
  have := h testEnv virtualArgs _ _ _ _ _ _ ⟨b! "shop/t", 20, 5⟩ ⟨20, 30, b! "PRIMARY", 1, 3⟩ _ _ false
    (shopRows (b! "ann") false) rfl rfl virtual_dictionary (List.mem_singleton.mpr rfl) (by decide)
    (by rw [virtual_stored]; exact shop_layout ⟨b! "shop/t", 20, 5⟩ (by decide)) (by rw [virtual_stored]; exact shopData_file testEnv (.inl rfl) false)
    (by decide) virtual_keys (virtual_handled ⟨b! "shop/t", 20, 5⟩ (by decide)) (by decide) (by decide) (by decide)
    (shopData_marked (.inl rfl) false) shop_compact (by decide)
    (by rw [virtual_stored]; exact shop_restored testEnv.ff) (by decide) (by decide) []
  exact (virtual_exact testEnv []).mp this ⟨virtualRow, by decide, by decide, by decide⟩

end Verif.Props
