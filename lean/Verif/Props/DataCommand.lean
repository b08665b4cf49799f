import Verif.Proofs.Stored
import Verif.Props.Output
/-!
# C57: the data command, from files to statements
-/

set_option linter.unusedSimpArgs false

namespace Verif.Props
open Verif Spec

/-- a name in SYS_TABLES: that of a system table, or `db/table` -/
def TableName (n : Bytes) : Prop := 47 ∉ n ∨ ∃ db t, n = db ++ b! "/" ++ t ∧ db ≠ [] ∧ 47 ∉ db ∧ 47 ∉ t

/-- a system tablespace with this dictionary -/
structure Dictionary (content : Bytes) (trs : List TableRow) (crs : List ColumnRow) (irs : List IndexRow) (frs : List FieldRow) : Prop where
  file : SystemFile content trs crs irs frs
  indexes : ∀ r ∈ irs, ∃ t ∈ trs, t.id = r.tableId
  ids : (trs.map (·.id)).Nodup
  names : (trs.map (·.name)).Nodup ∧ ∀ t ∈ trs, TableName t.name

/-- **C57**, as stated -/
def C57_statement : Prop :=
  ∀ (env : Env) (a : FromData) (sys ibd : Bytes) (trs : List TableRow) (crs : List ColumnRow) (irs : List IndexRow) (frs : List FieldRow)
    (t : TableRow) (r : IndexRow) (l : List Column) (defs : List ColDef) (deleted : Bool) (rows : List (List (Option TVal))),
    a.sysFile = .ok sys → a.tableFile = .ok ibd → Dictionary sys trs crs irs frs → t ∈ trs → t.name = a.db ++ b! "/" ++ a.table →
    ClusteredIndex irs t.id r → Layout irs frs t.id (columnsOf crs t.id) l →
    TableFile env ibd r.id (columnsOf crs t.id) l defs deleted rows → (deleted = true ↔ a.opType = b! "RecoveryData") →
    ∀ out, ∃ lines, fromDataFile env a out = .ok () (out ++ lines) ∧ All2 (Printed env.ff a.db a.table) lines rows

/-! ## Names -/

theorem takeWhile_slash (db rest : Bytes) (h : 47 ∉ db) : (db ++ 47 :: rest).takeWhile (· ≠ 47) = db := by
  induction db with
  | nil => rfl
  | cons c db ih =>
    simp only [List.mem_cons, not_or] at h
    rw [List.cons_append, List.takeWhile_cons_of_pos (by simpa using fun e => h.1 e.symm), ih h.2]

theorem dropWhile_slash (db rest : Bytes) (h : 47 ∉ db) : (db ++ 47 :: rest).dropWhile (· ≠ 47) = 47 :: rest := by
  induction db with
  | nil => rfl
  | cons c db ih =>
    simp only [List.mem_cons, not_or] at h
    rw [List.cons_append, List.dropWhile_cons_of_pos (by simpa using fun e => h.1 e.symm), ih h.2]

theorem takeWhile_all (t : Bytes) (h : 47 ∉ t) : t.takeWhile (· ≠ 47) = t := by
  induction t with
  | nil => rfl
  | cons c t ih =>
    simp only [List.mem_cons, not_or] at h
    rw [List.takeWhile_cons_of_pos (by simpa using fun e => h.1 e.symm), ih h.2]

theorem splitName_pair (db t : Bytes) (h1 : 47 ∉ db) (h2 : 47 ∉ t) : splitName (db ++ b! "/" ++ t) = (db, t) := by
  have e : db ++ b! "/" ++ t = db ++ 47 :: t := by rw [List.append_assoc]; rfl
  rw [e, splitName, if_pos (by simp), takeWhile_slash db t h1, dropWhile_slash db t h1]
  exact congrArg _ (takeWhile_all t h2)

/-- the tables of a dictionary have different names -/
theorem splitName_inj {m n : Bytes} (hm : TableName m) (hn : TableName n) (h : splitName m = splitName n) : m = n := by
  have none : ∀ {m : Bytes}, 47 ∉ m → splitName m = ([], m) := fun h => by rw [splitName, if_neg h]
  rcases hm with hm | ⟨d, t, rfl, hd, h1, h2⟩ <;> rcases hn with hn | ⟨d', t', rfl, hd', h1', h2'⟩
  · rw [none hm, none hn] at h
    injection h
  · rw [none hm, splitName_pair _ _ h1' h2'] at h
    injection h with e _
    exact absurd e.symm hd'
  · rw [none hn, splitName_pair _ _ h1 h2] at h
    injection h with e _
    exact absurd e hd
  · rw [splitName_pair _ _ h1 h2, splitName_pair _ _ h1' h2'] at h
    injection h with e e'
    rw [e, e']

theorem tableName_pair {db t : Bytes} (h : TableName (db ++ b! "/" ++ t)) : splitName (db ++ b! "/" ++ t) = (db, t) := by
  rcases h with h | ⟨d, u, e, _, h1, h2⟩
  · exact absurd (by simp) h
  · have hc := congrArg (List.count 47) e
    simp only [List.count_append, List.count_eq_zero_of_not_mem h1, List.count_eq_zero_of_not_mem h2] at hc
    have : List.count 47 db = 0 ∧ List.count 47 t = 0 := by
      simp at hc
      omega
    exact splitName_pair db t (List.count_eq_zero.mp this.1) (List.count_eq_zero.mp this.2)

/-! ## The loaded table -/

theorem loaded_unique {trs : List TableRow} {crs : List ColumnRow} {irs : List IndexRow} {frs : List FieldRow} {lay : Nat → List Column}
    (hn : (trs.map (·.name)).Nodup ∧ ∀ t ∈ trs, TableName t.name) {tables : TableMap} (hw : tables.WF)
    (h : ∀ id, LoadedTable trs crs irs frs lay id (tables.get? id)) : NamesUnique tables := by
  refine ⟨List.Nodup.of_map _ hw, fun e he e' he' h1 h2 => ?_⟩
  have g : ∀ e ∈ tables, ∃ r ∈ trs, r.id = e.1 ∧ (e.2.db, e.2.name) = splitName r.name := by
    intro e he
    have := h e.1
    rw [(GoMap.get?_iff hw e.1 e.2).mpr he] at this
    obtain ⟨r, ixs, e1, e2, -⟩ := this
    obtain ⟨hid, hmem⟩ := lastWith_some e1
    exact ⟨r, hmem, by simpa using hid, by rw [e2]; rfl⟩
  obtain ⟨r, m1, i1, s1⟩ := g e he
  obtain ⟨r', m2, i2, s2⟩ := g e' he'
  have : r = r' := List.inj_on_of_nodup_map hn.1 m1 m2 (splitName_inj (hn.2 r m1) (hn.2 r' m2) (by rw [← s1, ← s2, h1, h2]))
  exact List.inj_on_of_nodup_map hw he he' (by rw [← i1, ← i2, this])

theorem columnsOf_fields {crs : List ColumnRow} {id : Nat} {c : Column} (h : c ∈ columnsOf crs id) :
    c.tableId = id ∧ (c.isBinary = true → c.ftype = DATA_BLOB) := by
  obtain ⟨r, hr, rfl⟩ := List.mem_map.mp h
  have := (List.mem_filter.mp hr).2
  refine ⟨show r.tableId = id by simpa using this, fun hb => ?_⟩
  simp only [Bool.and_eq_true, beq_iff_eq] at hb
  exact hb.1

theorem handled_stored {irs : List IndexRow} {frs : List FieldRow} {crs : List ColumnRow} {id : Nat} (h : Handled irs frs crs id)
    {l : List Column} (hl : Layout irs frs id (columnsOf crs id) l)
    (hn : ((columnsOf crs id).map (·.name)).Nodup ∧ ∀ c ∈ columnsOf crs id, c.name ∉ internalNames) :
    userColumns l = columnsOf crs id ∧ 3 ≤ l.length ∧ (l.map (·.name)).Nodup ∧
      (∀ c ∈ l, c.name ∈ internalNames → c.ftype = 0 ∧ c.isNull = false) ∧ (∀ c ∈ l, c.tableId = id) ∧
      nullable l = nullable (columnsOf crs id) := by
  have hall : ∀ cols : List Column, (∀ c ∈ cols, c.name ∉ internalNames) → userColumns cols = cols := by
    intro cols h
    exact List.filter_eq_self.mpr fun c hc => by simpa using h c hc
  have htr : (trxColumn id 1).name ∈ internalNames := by show b! "DB_TRX_ID" ∈ internalNames; decide
  have hro : (rollColumn id 2).name ∈ internalNames := by show b! "DB_ROLL_PTR" ∈ internalNames; decide
  have hrw : (rowIdColumn id).name ∈ internalNames := by show b! "DB_ROW_ID" ∈ internalNames; decide
  have n12 : (trxColumn id 1).name ≠ (rollColumn id 2).name := by show b! "DB_TRX_ID" ≠ b! "DB_ROLL_PTR"; decide
  have n01 : (rowIdColumn id).name ≠ (trxColumn id 1).name := by show b! "DB_ROW_ID" ≠ b! "DB_TRX_ID"; decide
  have n02 : (rowIdColumn id).name ≠ (rollColumn id 2).name := by show b! "DB_ROW_ID" ≠ b! "DB_ROLL_PTR"; decide
  have hne : ∀ {n : Bytes}, n ∈ internalNames → n ∉ (columnsOf crs id).map (·.name) := by
    intro n hi hm
    obtain ⟨c, hc, rfl⟩ := List.mem_map.mp hm
    exact hn.2 c hc hi
  have hid := fun c hc => (columnsOf_fields (crs := crs) (id := id) (c := c) hc).1
  rcases (handled_layout h hl).2 with rfl | ⟨c, rest, hc, rfl⟩
  · refine ⟨?_, by simp, ?_, ?_, ?_, rfl⟩
    · unfold userColumns
      rw [List.filter_cons_of_neg (by simpa using hrw), List.filter_cons_of_neg (by simpa using htr), List.filter_cons_of_neg (by simpa using hro)]
      exact hall _ hn.2
    · simp only [List.map_cons, List.nodup_cons, List.mem_cons, not_or]
      exact ⟨⟨n01, n02, hne hrw⟩, ⟨n12, hne htr⟩, hne hro, hn.1⟩
    · intro c hc hi
      simp only [List.mem_cons] at hc
      rcases hc with rfl | rfl | rfl | hc
      · exact ⟨rfl, rfl⟩
      · exact ⟨rfl, rfl⟩
      · exact ⟨rfl, rfl⟩
      · exact absurd hi (hn.2 c hc)
    · intro c hc
      simp only [List.mem_cons] at hc
      rcases hc with rfl | rfl | rfl | hc
      · rfl
      · rfl
      · rfl
      · exact hid c hc
  · rw [hc] at hn hne hid ⊢
    have hcn := hn.2 c (by simp)
    refine ⟨?_, by simp, ?_, ?_, ?_, ?_⟩
    · unfold userColumns
      rw [List.filter_cons_of_pos (by simpa using hcn), List.filter_cons_of_neg (by simpa using htr),
        List.filter_cons_of_neg (by simpa using hro)]
      exact congrArg _ (hall _ fun x hx => hn.2 x (by simp [hx]))
    · have h1 := hne htr
      have h2 := hne hro
      have h3 := hn.1
      simp only [List.map_cons, List.nodup_cons, List.mem_cons, not_or] at h1 h2 h3 ⊢
      exact ⟨⟨fun e => h1.1 e.symm, fun e => h2.1 e.symm, h3.1⟩, ⟨n12, h1.2⟩, h2.2, h3.2⟩
    · intro x hx hi
      simp only [List.mem_cons] at hx
      rcases hx with rfl | rfl | rfl | hx
      · exact absurd hi hcn
      · exact ⟨rfl, rfl⟩
      · exact ⟨rfl, rfl⟩
      · exact absurd hi (hn.2 x (by simp [hx]))
    · intro x hx
      simp only [List.mem_cons] at hx
      rcases hx with rfl | rfl | rfl | hx
      · exact hid x (by simp)
      · rfl
      · rfl
      · exact hid x (by simp [hx])
    · unfold nullable
      cases hb : c.isNull <;> simp [hb, trxColumn, rollColumn, hiddenColumn]

theorem nullable_defs {l : List Column} {defs : List ColDef} (h : All2 Describes l defs) : nullable l = (defs.filter (·.nullable)).length := by
  unfold nullable
  induction h with
  | nil => rfl
  | @cons c k l defs h _ ih =>
    rw [List.filter_cons, List.filter_cons, h.1]
    split <;> simp_all

/-- a handled table once loaded -/
theorem loaded_table {trs : List TableRow} {crs : List ColumnRow} {irs : List IndexRow} {frs : List FieldRow} {lay : Nat → List Column}
    (hids : (trs.map (·.id)).Nodup) (hn : (trs.map (·.name)).Nodup ∧ ∀ t ∈ trs, TableName t.name) {tables : TableMap} (hw : tables.WF)
    (h : ∀ id, LoadedTable trs crs irs frs lay id (tables.get? id)) {t : TableRow} (ht : t ∈ trs) {db table : Bytes}
    (hname : t.name = db ++ b! "/" ++ table) : ∃ tb, tables.get? t.id = some tb ∧ tb.columns = lay t.id ∧
      tb.nullCount = nullable (columnsOf crs t.id) ∧ getTableColumnsFromDict tables db table = lay t.id := by
  have hg := h t.id
  cases hgt : tables.get? t.id with
  | none => rw [hgt] at hg; exact absurd rfl (hg t ht)
  | some tb =>
    rw [hgt] at hg
    obtain ⟨r, ixs, e1, e2, -⟩ := hg
    obtain ⟨hid, hmem⟩ := lastWith_some e1
    have : r = t := List.inj_on_of_nodup_map hids hmem ht (by simpa using hid)
    subst this
    have hsp : splitName r.name = (db, table) := by
      have := hn.2 r hmem
      rw [hname] at this ⊢
      exact tableName_pair this
    have hcols : tb.columns = lay r.id := by rw [e2]
    refine ⟨tb, rfl, hcols, by rw [e2], ?_⟩
    have := (C29_lookup tables (loaded_unique hn hw h) db table r.id tb ((GoMap.get?_iff hw _ _).mp hgt)
      (by rw [e2]; exact congrArg Prod.fst hsp) (by rw [e2]; exact congrArg Prod.snd hsp)).2.2
    rw [this, hcols]

theorem loaded_stored {trs : List TableRow} {crs : List ColumnRow} {irs : List IndexRow} {frs : List FieldRow} {lay : Nat → List Column}
    (hids : (trs.map (·.id)).Nodup) (hn : (trs.map (·.name)).Nodup ∧ ∀ t ∈ trs, TableName t.name) {tables : TableMap} (hw : tables.WF)
    (h : ∀ id, LoadedTable trs crs irs frs lay id (tables.get? id)) {t : TableRow} (ht : t ∈ trs) {db table : Bytes}
    (hname : t.name = db ++ b! "/" ++ table) (hh : Handled irs frs crs t.id) {l : List Column}
    (hl : Layout irs frs t.id (columnsOf crs t.id) l) (hlay : lay t.id = l)
    (hc : ((columnsOf crs t.id).map (·.name)).Nodup ∧ ∀ c ∈ columnsOf crs t.id, c.name ∉ internalNames) {defs : List ColDef}
    (hd : All2 Describes l defs) : StoredAs tables l defs ∧ getTableColumnsFromDict tables db table = l := by
  obtain ⟨h1, h2, h3, h4, h5, h6⟩ := handled_stored hh hl hc
  obtain ⟨tb, hgt, hcols, hnull, hget⟩ := loaded_table hids hn hw h ht hname
  rw [hlay] at hcols hget
  refine ⟨⟨⟨hd, ?_⟩, by rw [← all2_length hd]; exact h2, h3, h4⟩, hget⟩
  cases l with
  | nil => simp at h2
  | cons c0 l =>
    refine ⟨c0, tb, rfl, by rw [h5 c0 (by simp)]; exact hgt, by rw [hcols]; exact hd, ?_⟩
    rw [← nullable_defs hd, h6, hnull]

/-! ## The pages decoded -/

/-- the leaf pages of other indexes carry a transaction id, and those of the clustered index do not; records in the free list count as garbage -/
structure Marked (content : Bytes) (cid : Nat) (deleted : Bool) : Prop where
  trx : ∀ d ∈ filePages content, field d FIL_PAGE_TYPE = FIL_PAGE_INDEX → field d PAGE_LEVEL = 0 →
    (field d PAGE_MAX_TRX_ID = 0 ↔ field d PAGE_INDEX_ID = cid)
  garbage : deleted = true → ∀ d ∈ leafPages content cid deleted, field d PAGE_GARBAGE ≠ 0

theorem holds_free {defs : List ColDef} {d : Bytes} {cellss : List (List Cell)} (h : PageHolds defs true d cellss) :
    field d PAGE_FREE ≤ 16384 := by
  have key : ∀ os, Records true d os → field d PAGE_FREE ≤ 16384 := by
    intro os h
    have h : FreeList d (isCompact d) (field d PAGE_FREE) os := h
    cases h with
    | last hu => have := hu.2; omega
    | next hu => have := hu.2; omega
  cases h with
  | compact _ h => exact key _ h
  | redundant _ h => exact key _ h

theorem leaf_selected {content : Bytes} {cid : Nat} {deleted : Bool} (h : Marked content cid deleted)
    (hf : deleted = true → ∀ d ∈ leafPages content cid deleted, field d PAGE_FREE ≤ 16384) :
    selectedPages content deleted = leafPages content cid deleted := by
  unfold selectedPages leafPages
  refine List.filter_congr fun d hd => ?_
  have hmem : ∀ (_ : field d FIL_PAGE_TYPE = FIL_PAGE_INDEX) (_ : field d PAGE_LEVEL = 0) (_ : field d PAGE_INDEX_ID = cid)
      (_ : field d PAGE_FREE ≠ 0), d ∈ leafPages content cid deleted := by
    intro h1 h2 h3 h4
    exact List.mem_filter.mpr ⟨hd, by simp [h1, h2, h3, h4]⟩
  have ht := h.trx d hd
  rw [Bool.eq_iff_iff]
  simp only [decide_eq_true_eq, Bool.and_eq_true, beq_iff_eq, Bool.or_eq_true, Bool.not_eq_true', bne_iff_ne]
  constructor
  · rintro ⟨h1, h2, h3, h4⟩
    refine ⟨⟨⟨h1, h2⟩, (ht h1 h2).mp h3⟩, ?_⟩
    cases deleted with
    | false => exact .inl rfl
    | true => have := (h4 rfl).1; exact .inr (by omega)
  · rintro ⟨⟨⟨h1, h2⟩, h3⟩, h4⟩
    refine ⟨h1, h2, (ht h1 h2).mpr h3, fun hdel => ?_⟩
    rcases h4 with h4 | h4
    · rw [hdel] at h4; cases h4
    · have hm := hmem h1 h2 h3 h4
      exact ⟨by omega, hf hdel d hm, h.garbage hdel d hm⟩

/-! ## The command -/

/-- The command with a handled table: the pages of the table are read with the columns of the table. -/
theorem command_run (env : Env) (q : Prop) (D : TVal → Prop) (a : FromData) (sys ibd : Bytes) (trs : List TableRow) (crs : List ColumnRow)
    (irs : List IndexRow) (frs : List FieldRow) (t : TableRow) (r : IndexRow) (l : List Column) (defs : List ColDef) (deleted : Bool)
    (rows : List (List (Option TVal))) (hsys : a.sysFile = .ok sys) (hibd : a.tableFile = .ok ibd) (hdict : Dictionary sys trs crs irs frs)
    (ht : t ∈ trs) (hname : t.name = a.db ++ b! "/" ++ a.table) (hl : Layout irs frs t.id (columnsOf crs t.id) l)
    (hfile : TableFile env ibd r.id (columnsOf crs t.id) l defs deleted rows) (hop : deleted = true ↔ a.opType = b! "RecoveryData")
    (harr : ∀ t ∈ trs, UsualKeys irs frs crs t.id) (hh : Handled irs frs crs t.id)
    (hmark : Marked ibd r.id deleted)
    (hcompact : ∀ d ∈ leafPages ibd r.id deleted, isCompact d = true → ∀ k ∈ defs, k.kind.Readable)
    (hredundant : ∀ d ∈ leafPages ibd r.id deleted, isCompact d = false →
      (∀ k ∈ defs, ∀ m, k.kind = .varcharLatin1 m → m = 0) ∧ ∀ row ∈ rows, none ∉ row)
    (hdec : ∀ row ∈ rows, All2 (fun c x => (q → Restored env.ff c x) ∧ ∀ v, x = some v → D v) (columnsOf crs t.id) row)
    (out : Out) :
    ∃ tables rss, StoredAs tables l defs ∧ rows = rss.flatten ∧ (∀ d ∈ leafPages ibd r.id deleted, d.length = 16384) ∧
      All2 (fun d rs => ReadablePage env q D l defs d rs ∧ ∃ cellss, PageHolds defs deleted d cellss ∧
        All2 (fun cells row => All2 (Stores l cells) (userColumns l) row) cellss rs) (leafPages ibd r.id deleted) rss ∧
      fromDataFile env a out = match pagesRun env tables a.db a.table deleted (leafPages ibd r.id deleted) ⟨l, out⟩ with
        | .ok _ s => .ok () s.out
        | .panic s => .panic s.out
        | .hang s => .hang s.out := by
  obtain ⟨lay, hload, hlay⟩ := loads_arranged env sys trs crs irs frs hdict.file hdict.indexes harr
  obtain ⟨tables, dict, h1, h2, h3⟩ := hload out
  obtain ⟨hst, hcols⟩ := loaded_stored hdict.ids hdict.names h2 h3 ht hname hh hl (hlay t ht l (handled_layout hh hl).1) hfile.names hfile.desc
  have huser := (handled_stored hh hl hfile.names).1
  obtain ⟨rss, hrows, hpages⟩ := hfile.pages
  have hsel := leaf_selected hmark (by
    rintro rfl d hd
    obtain ⟨rs, _, cellss, hp, _⟩ := all2_mem hpages d hd
    exact holds_free hp)
  have hlen : ∀ d ∈ leafPages ibd r.id deleted, d.length = 16384 := fun d hd => filePages_length ibd d (List.mem_filter.mp hd).1
  have hgood : ∀ row ∈ rows, All2 (Good env q D) (userColumns l) row := by
    intro row hrow
    rw [huser]
    have h1 := hfile.typed row hrow
    have h2 := hdec row hrow
    have h3 := hfile.bits
    have h4 := fun c hc => (columnsOf_fields (crs := crs) (id := t.id) (c := c) hc).2
    clear * - h1 h2 h3 h4
    generalize columnsOf crs t.id = cols at *
    induction h1 with
    | nil => exact .nil
    | @cons c x cols row h1 _ ih =>
      cases h2 with
      | cons h2 h2s =>
        refine .cons ⟨h4 c (by simp), h3 c (by simp), h2.1, fun v hv => ⟨(h1 v hv).1, (h1 v hv).2, h2.2 v hv⟩⟩ ?_
        exact ih h2s (fun c hc => h3 c (by simp [hc])) fun c hc => h4 c (by simp [hc])
  have hall : All2 (fun d rs => ReadablePage env q D l defs d rs ∧ ∃ cellss, PageHolds defs deleted d cellss ∧
      All2 (fun cells row => All2 (Stores l cells) (userColumns l) row) cellss rs) (leafPages ibd r.id deleted) rss := by
    rw [huser]
    subst hrows
    have hsub : ∀ d rs, d ∈ leafPages ibd r.id deleted → (∀ row ∈ rs, row ∈ rss.flatten) → ReadablePage env q D l defs d rs := by
      intro d rs hd hrs
      exact ⟨hcompact d hd, fun h => ⟨(hredundant d hd h).1, fun row hrow => (hredundant d hd h).2 row (hrs row hrow)⟩,
        fun row hrow => hgood row (hrs row hrow)⟩
    clear * - hpages hsub
    generalize leafPages ibd r.id deleted = ds at *
    have key : ∀ (X : List (List (Option TVal))), (∀ d rs, d ∈ ds → (∀ row ∈ rs, row ∈ X) → ReadablePage env q D l defs d rs) →
        (∀ rs ∈ rss, ∀ row ∈ rs, row ∈ X) → All2 (fun d rs => ReadablePage env q D l defs d rs ∧ ∃ cellss, PageHolds defs deleted d cellss ∧
      All2 (fun cells row => All2 (Stores l cells) (columnsOf crs t.id) row) cellss rs) ds rss := by
      intro X h1 h2
      clear hsub
      induction hpages with
      | nil => exact .nil
      | @cons d rs ds rss h _ ih =>
        exact .cons ⟨h1 d rs (by simp) (h2 rs (by simp)), h⟩
          (ih (fun d rs hd => h1 d rs (List.mem_cons_of_mem _ hd)) fun rs hrs => h2 rs (List.mem_cons_of_mem _ hrs))
    exact key rss.flatten hsub fun rs hrs row hrow => List.mem_flatten.mpr ⟨rs, hrs, hrow⟩
  refine ⟨tables, rss, hst, hrows, hlen, hall, ?_⟩
  have hb : (a.opType == b! "RecoveryData") = deleted := by
    cases deleted with
    | true => simpa using hop.mp rfl
    | false =>
      rw [beq_eq_false_iff_ne]
      exact fun h => Bool.noConfusion (hop.mpr h)
  unfold fromDataFile
  rw [hsys, h1]
  dsimp only
  rw [hibd, hb, parseDataPage_run, hsel]
  dsimp only
  rw [hcols]
  cases pagesRun env tables a.db a.table deleted (leafPages ibd r.id deleted) ⟨l, out⟩ <;> rfl

/-- the command with a handled table -/
theorem command_decoded (env : Env) (q : Prop) (a : FromData) (sys ibd : Bytes) (trs : List TableRow) (crs : List ColumnRow)
    (irs : List IndexRow) (frs : List FieldRow) (t : TableRow) (r : IndexRow) (l : List Column) (defs : List ColDef) (deleted : Bool)
    (rows : List (List (Option TVal))) (hsys : a.sysFile = .ok sys) (hibd : a.tableFile = .ok ibd) (hdict : Dictionary sys trs crs irs frs)
    (ht : t ∈ trs) (hname : t.name = a.db ++ b! "/" ++ a.table) (hl : Layout irs frs t.id (columnsOf crs t.id) l)
    (hfile : TableFile env ibd r.id (columnsOf crs t.id) l defs deleted rows) (hop : deleted = true ↔ a.opType = b! "RecoveryData")
    (harr : ∀ t ∈ trs, UsualKeys irs frs crs t.id) (hh : Handled irs frs crs t.id)
    (hmark : Marked ibd r.id deleted)
    (hcompact : ∀ d ∈ leafPages ibd r.id deleted, isCompact d = true → ∀ k ∈ defs, k.kind.Readable)
    (hredundant : ∀ d ∈ leafPages ibd r.id deleted, isCompact d = false →
      (∀ k ∈ defs, ∀ m, k.kind = .varcharLatin1 m → m = 0) ∧ ∀ row ∈ rows, none ∉ row)
    (hdec : ∀ row ∈ rows, All2 (fun c x => (q → Restored env.ff c x) ∧ ∀ v, x = some v → TVal.Decodable v) (columnsOf crs t.id) row)
    (out : Out) :
    ∃ rws, fromDataFile env a out = .ok () (out ++ rws.map (replaceStmt env.ff a.db a.table)) ∧ All2 (Decoded env q l) rws rows := by
  obtain ⟨tables, rss, hst, hrows, hlen, hall, e⟩ := command_run env q TVal.Decodable a sys ibd trs crs irs frs t r l defs deleted rows hsys hibd hdict
    ht hname hl hfile hop harr hh hmark hcompact hredundant hdec out
  obtain ⟨rws, cols, e1, e2⟩ := pages_decoded env q tables a.db a.table l defs hst deleted _ hlen rss hall ⟨l, out⟩ rfl
  exact ⟨rws, by rw [e, e1], by rw [hrows]; exact e2⟩

/-- **C57**, in part: for a table that the tool handles, whose column types it can read and whose values it can print, the command prints
exactly one statement for each stored (or deleted) row, in order, which puts the values of that row into the table.  Missing: tables with other
primary keys or clustered by a unique key (see C56), tables whose dictionary entry makes the tool fail, column types that are not read
correctly (C20, C21), NULLs in REDUNDANT records (C21), values that are not decoded or printed correctly (`Restored`; see C06–C17 and C35),
names with backticks, and pages of other indexes without a transaction id. -/
theorem C57_command_partial (env : Env) (a : FromData) (sys ibd : Bytes) (trs : List TableRow) (crs : List ColumnRow)
    (irs : List IndexRow) (frs : List FieldRow) (t : TableRow) (r : IndexRow) (l : List Column) (defs : List ColDef) (deleted : Bool)
    (rows : List (List (Option TVal))) (hsys : a.sysFile = .ok sys) (hibd : a.tableFile = .ok ibd) (hdict : Dictionary sys trs crs irs frs)
    (ht : t ∈ trs) (hname : t.name = a.db ++ b! "/" ++ a.table) (hl : Layout irs frs t.id (columnsOf crs t.id) l)
    (hfile : TableFile env ibd r.id (columnsOf crs t.id) l defs deleted rows) (hop : deleted = true ↔ a.opType = b! "RecoveryData")
    (harr : ∀ t ∈ trs, UsualKeys irs frs crs t.id) (hh : Handled irs frs crs t.id)
    (hmark : Marked ibd r.id deleted)
    (hcompact : ∀ d ∈ leafPages ibd r.id deleted, isCompact d = true → ∀ k ∈ defs, k.kind.Readable)
    (hredundant : ∀ d ∈ leafPages ibd r.id deleted, isCompact d = false →
      (∀ k ∈ defs, ∀ m, k.kind = .varcharLatin1 m → m = 0) ∧ ∀ row ∈ rows, none ∉ row)
    (hvalues : ∀ row ∈ rows, All2 (Restored env.ff) (columnsOf crs t.id) row) (hdb : 96 ∉ a.db) (htab : 96 ∉ a.table) (out : Out) :
    ∃ lines, fromDataFile env a out = .ok () (out ++ lines) ∧ All2 (Printed env.ff a.db a.table) lines rows := by
  obtain ⟨rws, h1, h2⟩ := command_decoded env True a sys ibd trs crs irs frs t r l defs deleted rows hsys hibd hdict ht hname hl hfile hop harr hh
    hmark hcompact hredundant (fun row hrow => all2_imp (fun c x h => ⟨fun _ => h, by rintro v rfl; exact h.1⟩) (hvalues row hrow)) out
  exact ⟨_, h1, decoded_printed env True trivial a.db a.table hdb htab h2⟩

end Verif.Props
