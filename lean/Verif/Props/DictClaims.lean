import Verif.Props.DictExact
import Verif.Props.DictErrors
/-!
# C30, C31, C33, C34 for files: from the bytes of the system file to the loaded tables
-/

namespace Verif.Props
open Verif Spec

/-- the user's columns of a loaded table -/
def ownColumns (t : Table) : List Column := t.columns.filter fun c => !internalNames.contains c.name

/-- the rows of a dictionary in the file, as in C56 -/
structure DictFile (content : Bytes) (trs : List TableRow) (crs : List ColumnRow) (irs : List IndexRow) (frs : List FieldRow) : Prop where
  file : SystemFile content trs crs irs frs
  known : ∀ r ∈ irs, ∃ t ∈ trs, t.id = r.tableId
  keys : ∀ t ∈ trs, UsualKeys irs frs crs t.id
  names : ∀ t ∈ trs, UsualNames irs t.id

/-- **C33 (partial)**, for files: exactly the tables of SYS_TABLES are loaded, each with the names and the space of its row (the last one,
if there are several with its id) and the number of its columns that are not NOT NULL; the columns of SYS_COLUMNS, with their flags, are
those of the table, in order, if the tool gets its key right (`Handled`).  Missing: other keys (`C31_file_exact`), and the binary flag of
columns that are not BLOBs (`C33_false`). -/
theorem C33_file_partial (env : Env) (content : Bytes) (trs : List TableRow) (crs : List ColumnRow) (irs : List IndexRow) (frs : List FieldRow)
    (h : DictFile content trs crs irs frs) (out : Out) :
    ∃ tables dict, parseDictPage env (.ok content) { out := out } = .ok none { tables, dict, out } ∧
      (∀ id, (∃ tb, tables.get? id = some tb) ↔ ∃ r ∈ trs, r.id = id) ∧
      ∀ id tb, tables.get? id = some tb → ∃ r, lastWith (·.id == id) trs = some r ∧ tb.db = (splitName r.name).1 ∧ tb.name = (splitName r.name).2 ∧
        tb.spaceId = r.space ∧ tb.nullCount = (crs.filter fun c => c.tableId == id && !bit c.prtype 8).length ∧
        ((∃ l, Layout irs frs id (columnsOf crs id) l) → Handled irs frs crs id → (∀ c ∈ crs, c.tableId = id → c.name ∉ internalNames) →
          ownColumns tb = (crs.filter (·.tableId == id)).map fun c =>
            { columnOf c with isBinary := c.mtype == 5 && bit c.prtype DATA_BINARY_TYPE }) := by
  obtain ⟨lay, h1, h2⟩ := C56_exact env content trs crs irs frs h.file h.known h.keys h.names
  obtain ⟨tables, dict, h3, -, h5⟩ := h1 out
  refine ⟨tables, dict, h3, fun id => ⟨?_, ?_⟩, ?_⟩
  · rintro ⟨tb, htb⟩
    have := h5 id
    rw [htb] at this
    obtain ⟨r, ixs, e, -⟩ := this
    obtain ⟨e1, e2⟩ := lastWith_some e
    exact ⟨r, e2, by simpa using e1⟩
  · rintro ⟨r, hr, he⟩
    have := h5 id
    cases hg : tables.get? id with
    | none => rw [hg] at this; exact absurd he (this r hr)
    | some tb => exact ⟨tb, rfl⟩
  · intro id tb htb
    have := h5 id
    rw [htb] at this
    obtain ⟨r, ixs, e, rfl, -⟩ := this
    obtain ⟨e1, e2⟩ := lastWith_some e
    have e1 : r.id = id := by simpa using e1
    refine ⟨r, e, rfl, rfl, rfl, ?_, fun ⟨l, hl⟩ hh hn => ?_⟩
    · show nullable (columnsOf crs id) = _
      unfold nullable columnsOf
      rw [List.filter_map, List.length_map, List.filter_filter]
      congr 2
      funext c
      exact Bool.and_comm _ _
    · have hlay : lay id = l := by
        have := (h2 r e2 l (by rw [e1]; exact hl)).mpr (by rw [e1]; exact hh)
        rw [← e1]; exact this
      have hu : ∀ c ∈ columnsOf crs id, (!internalNames.contains c.name) = true := by
        intro c hc
        unfold columnsOf at hc
        obtain ⟨x, hx, rfl⟩ := List.mem_map.mp hc
        obtain ⟨hx1, hx2⟩ := List.mem_filter.mp hx
        have := hn x hx1 (by simpa using hx2)
        show (!internalNames.contains x.name) = true
        simpa using this
      show (lay id).filter _ = columnsOf crs id
      rw [hlay]
      have n1 : (!internalNames.contains (rowIdColumn id).name) = false := by show (!internalNames.contains (b! "DB_ROW_ID")) = false; decide
      have n2 : (!internalNames.contains (trxColumn id 1).name) = false := by show (!internalNames.contains (b! "DB_TRX_ID")) = false; decide
      have n3 : (!internalNames.contains (rollColumn id 2).name) = false := by show (!internalNames.contains (b! "DB_ROLL_PTR")) = false; decide
      rcases (handled_layout hh hl).2 with rfl | ⟨c, rest, hc, rfl⟩
      · rw [List.filter_cons, n1, List.filter_cons, n2, List.filter_cons, n3]
        exact List.filter_eq_self.mpr hu
      · rw [hc] at hu
        rw [List.filter_cons, hu c (by simp), List.filter_cons, n2, List.filter_cons, n3, hc]
        exact congrArg (c :: ·) (List.filter_eq_self.mpr fun x hx => hu x (by simp [hx]))

/-- **C34**, for files: the indexes of a loaded table are those of its rows of SYS_INDEXES, with the fields of SYS_FIELDS in file order.  (For
index rows of unknown tables see `C63_unknown_table`.) -/
theorem C34_file (env : Env) (content : Bytes) (trs : List TableRow) (crs : List ColumnRow) (irs : List IndexRow) (frs : List FieldRow)
    (h : DictFile content trs crs irs frs) (out : Out) :
    ∃ tables dict, parseDictPage env (.ok content) { out := out } = .ok none { tables, dict, out } ∧
      ∀ id tb, tables.get? id = some tb → ∀ k, tb.indexes.get? k = definedIndex irs frs id k := by
  obtain ⟨lay, h1, h2⟩ := C56_exact env content trs crs irs frs h.file h.known h.keys h.names
  obtain ⟨tables, dict, h3, -, h5⟩ := h1 out
  refine ⟨tables, dict, h3, fun id tb htb k => ?_⟩
  have := h5 id
  rw [htb] at this
  obtain ⟨r, ixs, e, rfl, -, hk⟩ := this
  exact hk k

/-- **C30 (partial)**, for files: DB_ROW_ID, DB_TRX_ID and DB_ROLL_PTR come first in a table with a generated clustered index; DB_TRX_ID and
DB_ROLL_PTR follow the key in a table whose primary key is its first column; the user's columns keep their order.  Missing: other keys. -/
theorem C30_file_partial (env : Env) (content : Bytes) (trs : List TableRow) (crs : List ColumnRow) (irs : List IndexRow) (frs : List FieldRow)
    (h : DictFile content trs crs irs frs) (out : Out) :
    ∃ tables dict, parseDictPage env (.ok content) { out := out } = .ok none { tables, dict, out } ∧
      ∀ t ∈ trs, ∀ r, ClusteredIndex irs t.id r →
        (r.name = b! "GEN_CLUST_INDEX" → ClusteredBy irs t.id r → ∃ tb, tables.get? t.id = some tb ∧
          tb.columns.map (·.name) = [b! "DB_ROW_ID", b! "DB_TRX_ID", b! "DB_ROLL_PTR"] ++ (columnsOf crs t.id).map (·.name)) ∧
        (r.name = b! "PRIMARY" → ClusteredBy irs t.id r → r.nFields = 1 → ∀ c rest, columnsOf crs t.id = c :: rest → KeyOf (fieldsOf frs r) (c :: rest) →
          (fieldsOf frs r).map (·.name) = [c.name] → ∃ tb, tables.get? t.id = some tb ∧
          tb.columns.map (·.name) = [c.name, b! "DB_TRX_ID", b! "DB_ROLL_PTR"] ++ rest.map (·.name)) := by
  obtain ⟨lay, h1, h2⟩ := C56_exact env content trs crs irs frs h.file h.known h.keys h.names
  obtain ⟨tables, dict, h3, -, h5⟩ := h1 out
  have hcols : ∀ t ∈ trs, ∃ tb, tables.get? t.id = some tb ∧ tb.columns = lay t.id := by
    intro t ht
    have := h5 t.id
    cases hg : tables.get? t.id with
    | none => rw [hg] at this; exact absurd rfl (this t ht)
    | some tb =>
      rw [hg] at this
      obtain ⟨r, ixs, e, rfl, -⟩ := this
      exact ⟨_, rfl, rfl⟩
  refine ⟨tables, dict, h3, fun t ht r hr => ⟨fun hn hb => ?_, fun hn hb h1f c rest hc hK hf => ?_⟩⟩
  · have h4 := (h.names t ht r hr.1 hr.2.1).2 hn
    obtain ⟨tb, e1, e2⟩ := hcols t ht
    refine ⟨tb, e1, ?_⟩
    rw [e2, (h2 t ht _ (.generated hr (by omega))).mpr ⟨r, hb, by omega, .inl ⟨hn, by omega⟩⟩]
    rfl
  · have h4 := (h.names t ht r hr.1 hr.2.1).1 hn
    obtain ⟨tb, e1, e2⟩ := hcols t ht
    refine ⟨tb, e1, ?_⟩
    have hlen : (fieldsOf frs r).length = 1 := by
      have := congrArg List.length hf
      simpa using this
    have hl : Layout irs frs t.id (columnsOf crs t.id) _ := .key hr (by omega) (by omega) (by rw [hc]; exact hK)
    have hh : Handled irs frs crs t.id := ⟨r, hb, by omega, .inr ⟨hn, by omega, c, rest, hc, hf⟩⟩
    obtain ⟨f, hff⟩ := List.length_eq_one_iff.mp hlen
    rw [hff, List.map_singleton] at hf
    injection hf with hf
    have h6 := C31_first_column_partial c rest hK.1 f hf
    rw [C31_single (c :: rest) hK.1 f 0 (by simp) hf] at h6
    injection h6 with h6
    rw [e2, (h2 t ht _ hl).mpr hh, h1f, hff, hc, ← h6]
    rfl

/-- **C31**, exactly, for files: the columns of a loaded table with a primary key are in stored order (key columns in index order, hidden
columns, other columns) if and only if the key is the first column. -/
theorem C31_file_exact (env : Env) (content : Bytes) (trs : List TableRow) (crs : List ColumnRow) (irs : List IndexRow) (frs : List FieldRow)
    (h : DictFile content trs crs irs frs) (out : Out) :
    ∃ tables dict, parseDictPage env (.ok content) { out := out } = .ok none { tables, dict, out } ∧
      ∀ t ∈ trs, ∀ r, ClusteredIndex irs t.id r → r.name = b! "PRIMARY" → ClusteredBy irs t.id r → r.nFields = (fieldsOf frs r).length →
        KeyOf (fieldsOf frs r) (columnsOf crs t.id) → ∃ tb, tables.get? t.id = some tb ∧
        (tb.columns = withInternal t.id r.nFields (clusteredOrder (fieldsOf frs r) (columnsOf crs t.id)) ↔
          (fieldsOf frs r).map (·.name) = ((columnsOf crs t.id).take 1).map (·.name)) := by
  obtain ⟨lay, h1, h2⟩ := C56_exact env content trs crs irs frs h.file h.known h.keys h.names
  obtain ⟨tables, dict, h3, -, h5⟩ := h1 out
  refine ⟨tables, dict, h3, fun t ht r hr hn hb hf hK => ?_⟩
  have h4 := (h.names t ht r hr.1 hr.2.1).1 hn
  have hl : Layout irs frs t.id (columnsOf crs t.id) _ := .key hr (by omega) hf hK
  have h6 := h2 t ht _ hl
  have h7 : Handled irs frs crs t.id ↔ (fieldsOf frs r).map (·.name) = ((columnsOf crs t.id).take 1).map (·.name) := by
    constructor
    · rintro ⟨r', hb', -, hx⟩
      have : r = r' := by
        rcases hb'.2.2 r hr.1 hr.2.1 with e | e
        · exact e
        · exact absurd hn e.2.1
      subst this
      rcases hx with ⟨e, -⟩ | ⟨-, -, c, rest, e1, e2⟩
      · rw [hn] at e; exact absurd e (by decide)
      · rw [e1, e2]; rfl
    · intro e
      refine ⟨r, hb, by omega, .inr ⟨hn, by omega, ?_⟩⟩
      cases hc : columnsOf crs t.id with
      | nil =>
        rw [hc] at e
        have := congrArg List.length e
        rw [List.length_map] at this
        have : (fieldsOf frs r).length = 0 := this
        omega
      | cons c rest =>
        rw [hc] at e
        exact ⟨c, rest, rfl, e⟩
  have := h5 t.id
  cases hg : tables.get? t.id with
  | none => rw [hg] at this; exact absurd rfl (this t ht)
  | some tb =>
    rw [hg] at this
    obtain ⟨r', ixs, -, rfl, -⟩ := this
    exact ⟨_, rfl, h6.trans h7⟩

/-- the dictionary of the shop: the key `id` is the first column -/
theorem shop_dictFile : DictFile (shopFile idKey) shopTables shopColumns (shopIndexes idKey) (shopFields idKey) :=
  ⟨shop_system (.inl rfl), by decide, shop_arranged, by decide⟩

/-- the key `name` is not -/
theorem name_dictFile : DictFile (shopFile nameKey) shopTables shopColumns (shopIndexes nameKey) (shopFields nameKey) :=
  ⟨shop_system (.inr (.inl rfl)), by decide, by
    intro t ht
    cases List.mem_singleton.mp ht
    exact .inr ⟨⟨20, 30, b! "PRIMARY", 1, 3⟩, by decide, .inr ⟨by decide, by decide, by decide, by decide⟩⟩, by decide⟩

example (env : Env) : ∃ tables dict tb, parseDictPage env (.ok (shopFile idKey)) {} = .ok none { tables, dict } ∧ tables.get? 20 = some tb ∧
    tb.db = b! "shop" ∧ tb.name = b! "t" ∧ (ownColumns tb).map (·.name) = [b! "id", b! "name"] := by
  obtain ⟨tables, dict, h1, h2, h3⟩ := C33_file_partial env _ _ _ _ _ shop_dictFile []
  obtain ⟨tb, htb⟩ := (h2 20).mpr ⟨⟨b! "shop/t", 20, 5⟩, by decide, rfl⟩
  obtain ⟨r, e, e1, e2, -, -, e3⟩ := h3 20 tb htb
  have : r = ⟨b! "shop/t", 20, 5⟩ := by
    rw [show lastWith (fun x : TableRow => x.id == 20) shopTables = some ⟨b! "shop/t", 20, 5⟩ by decide] at e
    exact (Option.some.inj e).symm
  subst this
  refine ⟨tables, dict, tb, h1, htb, e1, e2, ?_⟩
  rw [e3 ⟨_, shop_layout ⟨b! "shop/t", 20, 5⟩ (by decide)⟩ (shop_handled ⟨b! "shop/t", 20, 5⟩ (by decide)) (by decide)]
  decide

example (env : Env) : ∃ tables dict tb, parseDictPage env (.ok (shopFile idKey)) {} = .ok none { tables, dict } ∧ tables.get? 20 = some tb ∧
    tb.columns.map (·.name) = [b! "id", b! "DB_TRX_ID", b! "DB_ROLL_PTR", b! "name"] := by
  obtain ⟨tables, dict, h1, h2⟩ := C30_file_partial env _ _ _ _ _ shop_dictFile []
  obtain ⟨tb, e1, e2⟩ := (h2 ⟨b! "shop/t", 20, 5⟩ (by decide) ⟨20, 30, b! "PRIMARY", 1, 3⟩ (by decide)).2 rfl (by decide) rfl shopId [shopName] (by decide)
    (by decide) (by decide)
  exact ⟨tables, dict, tb, h1, e1, e2⟩

/-- the key `name` of the other file: not in stored order -/
example (env : Env) : ∃ tables dict tb, parseDictPage env (.ok (shopFile nameKey)) {} = .ok none { tables, dict } ∧ tables.get? 20 = some tb ∧
    tb.columns ≠ [shopName, trxColumn 20 1, rollColumn 20 2, shopId] := by
  obtain ⟨tables, dict, h1, h2⟩ := C31_file_exact env _ _ _ _ _ name_dictFile []
  obtain ⟨tb, e1, e2⟩ := h2 ⟨b! "shop/t", 20, 5⟩ (by decide) ⟨20, 30, b! "PRIMARY", 1, 3⟩ (by decide) rfl (by decide) (by decide) (by decide)
  refine ⟨tables, dict, tb, h1, e1, fun e => ?_⟩
  have := e2.mp (by rw [e]; decide)
  exact absurd this (by decide)

example (env : Env) : ∃ tables dict, parseDictPage env (.ok (shopFile idKey)) {} = .ok none { tables, dict } ∧
    ∀ id tb, tables.get? id = some tb → ∀ k, tb.indexes.get? k = definedIndex (shopIndexes idKey) (shopFields idKey) id k :=
  C34_file env _ _ _ _ _ shop_dictFile []

end Verif.Props
