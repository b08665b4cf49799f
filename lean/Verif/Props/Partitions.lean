import Verif.Props.Names
/-!
# C80: partitioned tables

SYS_TABLES has one entry for each partition of a table, `db/table#P#partition`, and none for the table itself; each partition has a data file of
its own.
-/

namespace Verif.Props
open Verif Spec

/-- the name under which a partition is recorded, behind that of the database -/
def partitionName (table part : Bytes) : Bytes := table ++ b! "#P#" ++ part

/-- **C80**, as stated: given the data file of a partition and the name of the table, the command prints its rows as statements for the table. -/
def C80_statement : Prop := ∀ part : Bytes, CommandPrints fun a => a.db ++ b! "/" ++ partitionName a.table part

theorem split_other {n db table : Bytes} (hn : TableName n) (hdb : db ≠ []) (h : splitName n = (db, table)) : n = db ++ b! "/" ++ table := by
  rcases hn with hn | ⟨d, t, rfl, _, h1, h2⟩
  · rw [splitName, if_neg hn] at h
    injection h with e _
    exact absurd e.symm hdb
  · rw [splitName_pair _ _ h1 h2] at h
    injection h with e e'
    rw [e, e']

/-- **C80, what happens:** given the name of the table, the command prints none of the rows of a partition; it aborts at the first one. -/
theorem C80_lost (env : Env) (a : FromData) (part sys ibd : Bytes) (trs : List TableRow) (crs : List ColumnRow) (irs : List IndexRow)
    (frs : List FieldRow) (t : TableRow) (cid : Nat) (cols l : List Column) (defs : List ColDef) (deleted : Bool) (rows : List (List (Option TVal)))
    (hsys : a.sysFile = .ok sys) (hibd : a.tableFile = .ok ibd) (hdict : Dictionary sys trs crs irs frs) (ht : t ∈ trs)
    (hname : t.name = a.db ++ b! "/" ++ partitionName a.table part) (hno : ∀ t ∈ trs, t.name ≠ a.db ++ b! "/" ++ a.table)
    (hfile : TableFile env ibd cid cols l defs deleted rows) (hop : deleted = true ↔ a.opType = b! "RecoveryData")
    (harr : ∀ t ∈ trs, UsualKeys irs frs crs t.id) (hmark : Marked ibd cid deleted) (hr : rows ≠ []) (out : Out) :
    fromDataFile env a out = .panic out := by
  have hdel : (a.opType == b! "RecoveryData") = deleted := by
    rw [Bool.eq_iff_iff, beq_iff_eq]
    exact hop.symm
  have hdb : a.db ≠ [] := by
    intro he
    have := hdict.names.2 t ht
    rw [hname, he] at this
    rcases this with h | ⟨d, u, e, h1, h2, h3⟩
    · exact h (by simp)
    · cases d with
      | nil => exact h1 rfl
      | cons x d =>
        injection e with e _
        exact h2 (by rw [← e]; simp)
  rw [unknown_run env a sys ibd trs crs irs frs hsys hibd hdict harr ?_ out, hdel, if_pos (file_record hfile hmark hr)]
  intro u hu he
  exact hno u hu (split_other (hdict.names.2 u hu) hdb he)

/-- **C80 (partial):** given the name of the partition, its rows are printed, but each statement is for a table with the name of the partition,
and none is for the table.  Missing: statements for the table. -/
theorem C80_renamed_partial (env : Env) (table part : Bytes) (a : FromData) (sys ibd : Bytes) (trs : List TableRow) (crs : List ColumnRow)
    (irs : List IndexRow) (frs : List FieldRow) (t : TableRow) (r : IndexRow) (l : List Column) (defs : List ColDef) (deleted : Bool)
    (rows : List (List (Option TVal))) (hatab : a.table = partitionName table part)
    (hsys : a.sysFile = .ok sys) (hibd : a.tableFile = .ok ibd) (hdict : Dictionary sys trs crs irs frs) (ht : t ∈ trs)
    (hname : t.name = a.db ++ b! "/" ++ partitionName table part) (hl : Layout irs frs t.id (columnsOf crs t.id) l)
    (hfile : TableFile env ibd r.id (columnsOf crs t.id) l defs deleted rows) (hop : deleted = true ↔ a.opType = b! "RecoveryData")
    (harr : ∀ t ∈ trs, UsualKeys irs frs crs t.id) (hh : Handled irs frs crs t.id) (hmark : Marked ibd r.id deleted)
    (hcompact : ∀ d ∈ leafPages ibd r.id deleted, isCompact d = true) (hread : ∀ k ∈ defs, k.kind.Readable)
    (hvalues : ∀ row ∈ rows, All2 (Restored env.ff) (columnsOf crs t.id) row) (hdb : 96 ∉ a.db) (h96 : 96 ∉ table) (h96' : 96 ∉ part) (out : Out) :
    ∃ lines, fromDataFile env a out = .ok () (out ++ lines) ∧ All2 (Printed env.ff a.db (partitionName table part)) lines rows ∧
      ∀ line ∈ lines, ∀ row, ¬ Printed env.ff a.db table line row := by
  have h96p : 96 ∉ partitionName table part := by simp [partitionName, h96, h96']
  obtain ⟨lines, h1, h2⟩ := C57_command_partial env a sys ibd trs crs irs frs t r l defs deleted rows hsys hibd hdict ht (by rw [hname, hatab]) hl
    hfile hop harr hh hmark (fun _ _ _ => hread) (fun d hd hc => by rw [hcompact d hd] at hc; cases hc) hvalues hdb (by rw [hatab]; exact h96p) out
  rw [hatab] at h2
  refine ⟨lines, h1, h2, ?_⟩
  rintro line hline row ⟨vs, hv, -⟩
  obtain ⟨row', -, vs', hv', -⟩ := all2_mem h2 line hline
  rw [hv] at hv'
  injection hv' with hv'
  injection hv' with _ e _
  have := congrArg List.length e
  simp only [partitionName, List.length_append] at this
  have h3 : (b! "#P#").length = 3 := rfl
  omega

/-! ## A partitioned table

`CREATE TABLE shop.t (id INT PRIMARY KEY, name VARCHAR(10)) PARTITION BY RANGE (id) (PARTITION p0 VALUES LESS THAN (100))` -/

def partName : Bytes := b! "shop/t#P#p0"

theorem part_dictionary : Dictionary (namedFile partName) (namedTables partName) shopColumns (shopIndexes idKey) (shopFields idKey) :=
  named_dictionary _ (b! "shop") (b! "t#P#p0") rfl (by decide) (by decide) (by decide) (by decide)

def partArgs (table : Bytes) : FromData :=
  { sysFile := .ok (namedFile partName), tableFile := .ok (shopData (b! "ann")), db := b! "shop", table := table, opType := b! "RecoveryStruct" }

/-- the hypotheses of `C80_lost` hold -/
theorem part_lost (env : Env) (out : Out) : fromDataFile env (partArgs (b! "t")) out = .panic out :=
  C80_lost env _ (b! "p0") _ _ _ _ _ _ ⟨partName, 20, 5⟩ 30 _ _ _ false (shopRows (b! "ann") false) rfl rfl part_dictionary
    (List.mem_singleton.mpr rfl) (by decide) (fun t ht => by cases List.mem_singleton.mp ht; show partName ≠ _; decide)
    (shopData_file env (.inl rfl) false) (by decide) (named_keys _) (shopData_marked (.inl rfl) false) (by decide) out

/-- the hypotheses of `C80_renamed_partial` hold -/
example (env : Env) (out : Out) : ∃ lines, fromDataFile env (partArgs (b! "t#P#p0")) out = .ok () (out ++ lines) ∧
    All2 (Printed env.ff (b! "shop") (b! "t#P#p0")) lines (shopRows (b! "ann") false) ∧
    ∀ line ∈ lines, ∀ row, ¬ Printed env.ff (b! "shop") (b! "t") line row :=
  C80_renamed_partial env (b! "t") (b! "p0") (partArgs (b! "t#P#p0")) _ _ _ _ _ _ ⟨partName, 20, 5⟩
    ⟨20, 30, b! "PRIMARY", 1, 3⟩ _ _ false _ rfl rfl rfl part_dictionary
    (List.mem_singleton.mpr rfl) (by decide) (shop_layout ⟨b! "shop/t", 20, 5⟩ (by decide)) (shopData_file env (.inl rfl) false) (by decide)
    (named_keys _) (shop_handled ⟨b! "shop/t", 20, 5⟩ (by decide)) (shopData_marked (.inl rfl) false) shop_compact (by decide) (shop_restored env.ff)
    (show 96 ∉ b! "shop" by decide) (by decide) (by decide) out

/-- C80 is false of the code: the rows of the partition `p0` are not printed. -/
theorem C80_false : ¬ C80_statement := by
  intro h
  obtain ⟨lines, h1, -⟩ := h (b! "p0") testEnv (partArgs (b! "t")) _ _ _ _ _ _ ⟨partName, 20, 5⟩ ⟨20, 30, b! "PRIMARY", 1, 3⟩ _ _ false
    (shopRows (b! "ann") false) rfl rfl part_dictionary
    (List.mem_singleton.mpr rfl) (by decide) (shop_layout ⟨b! "shop/t", 20, 5⟩ (by decide)) (shopData_file testEnv (.inl rfl) false) (by decide)
    (named_keys _) (shop_handled ⟨b! "shop/t", 20, 5⟩ (by decide)) (shopData_marked (.inl rfl) false) shop_compact (by decide) (shop_restored testEnv.ff)
    (by decide) (by decide) (by decide) (by decide) []
  rw [part_lost] at h1
  cases h1

end Verif.Props
