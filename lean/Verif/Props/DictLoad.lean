import Verif.Proofs.SysPage
/-!
# C56: the dictionary loaded from a system tablespace file
-/

set_option linter.unusedSimpArgs false

namespace Verif.Props
open Verif Spec

/-! ## The four tables -/

theorem beVal8 {n : Nat} (h : n < 2 ^ 64) : beVal (beEnc 8 n) = n := beVal_beEnc (w := 8) h
theorem beVal4 {n : Nat} (h : n < 2 ^ 32) : beVal (beEnc 4 n) = n := beVal_beEnc (w := 4) h

instance (c : Column) : Decidable (SysCol c) := inferInstanceAs (Decidable (_ ∧ _))
instance (c : Column) (b : Bytes) : Decidable (SysFit c b) := inferInstanceAs (Decidable (_ ∨ _))

theorem sysTables_table : SysTable TablesLeaf [none] makeSysTablesColumns IsTableRow where
  cols := by decide
  len3 := by decide
  len10 := by decide
  trx := ⟨_, rfl, rfl, rfl⟩
  fit := by
    rintro r row ⟨_, _, trx, roll, nCols, type, mixId, mixLen, cluster, h1, h2, h3, h4, h5, hr⟩
    rw [hr]
    exact .cons (.inl rfl) (.cons (.inr h1) (.cons (.inr h2) (.cons (.inr (beEnc_length' _ _)) (.cons (.inr h3) (.cons (.inr h4)
      (.cons (.inl rfl) (.cons (.inr h5) (.cons (.inl rfl) (.cons (.inr (beEnc_length' _ _)) .nil)))))))))
  is := by
    rintro r row ⟨hid, hsp, trx, roll, nCols, type, mixId, mixLen, cluster, _, _, _, _, _, hr⟩ cs hv
    rw [hr] at hv
    generalize hm : cs.map (·.value) = vs at hv
    unfold IsTableRow valueAt
    rw [hm]
    rcases hv with _ | ⟨v0, _ | ⟨_, _ | ⟨_, _ | ⟨v3, _ | ⟨_, _ | ⟨_, _ | ⟨_, _ | ⟨_, _ | ⟨_, _ | ⟨v9, _ | _⟩⟩⟩⟩⟩⟩⟩⟩⟩⟩
    refine ⟨congrArg some (v0.1 (.inr rfl)), ?_, ?_⟩
    · have := v3.2 (.inl ⟨rfl, rfl⟩)
      rw [beVal8 hid] at this
      exact congrArg some this
    · have := v9.2 (.inr ⟨rfl, rfl⟩)
      rw [beVal4 hsp] at this
      exact congrArg some this

theorem sysColumns_table : SysTable ColumnsLeaf [some 8, some 4] makeSysColumnsColumns IsColumnRow where
  cols := by decide
  len3 := by decide
  len10 := by decide
  trx := ⟨_, rfl, rfl, rfl⟩
  fit := by
    rintro r row ⟨_, _, _, _, _, trx, roll, prec, h1, h2, h3, hr⟩
    rw [hr]
    exact .cons (.inr (beEnc_length' _ _)) (.cons (.inr (beEnc_length' _ _)) (.cons (.inr h1) (.cons (.inr h2) (.cons (.inl rfl)
      (.cons (.inr (beEnc_length' _ _)) (.cons (.inr (beEnc_length' _ _)) (.cons (.inr (beEnc_length' _ _)) (.cons (.inr h3) .nil))))))))
  is := by
    rintro r row ⟨hid, hpos, hmt, hpr, hlen, trx, roll, prec, _, _, _, hr⟩ cs hv
    rw [hr] at hv
    generalize hm : cs.map (·.value) = vs at hv
    unfold IsColumnRow valueAt
    rw [hm]
    rcases hv with _ | ⟨v0, _ | ⟨v1, _ | ⟨_, _ | ⟨_, _ | ⟨v4, _ | ⟨v5, _ | ⟨v6, _ | ⟨v7, _ | ⟨_, _ | _⟩⟩⟩⟩⟩⟩⟩⟩⟩
    have e0 := v0.2 (.inl ⟨rfl, rfl⟩)
    have e1 := v1.2 (.inr ⟨rfl, rfl⟩)
    have e5 := v5.2 (.inr ⟨rfl, rfl⟩)
    have e6 := v6.2 (.inr ⟨rfl, rfl⟩)
    have e7 := v7.2 (.inr ⟨rfl, rfl⟩)
    rw [beVal8 hid] at e0
    rw [beVal4 hpos] at e1
    rw [beVal4 hmt] at e5
    rw [beVal4 hpr] at e6
    rw [beVal4 hlen] at e7
    exact ⟨congrArg some e0, congrArg some e1, congrArg some (v4.1 (.inr rfl)), congrArg some e5, congrArg some e6, congrArg some e7⟩

theorem sysIndexes_table : SysTable IndexesLeaf [some 8, some 8] makeSysIndexesColumns IsIndexRow where
  cols := by decide
  len3 := by decide
  len10 := by decide
  trx := ⟨_, rfl, rfl, rfl⟩
  fit := by
    rintro r row ⟨_, _, _, _, trx, roll, space, pageNo, h1, h2, h3, h4, hr⟩
    rw [hr]
    exact .cons (.inr (beEnc_length' _ _)) (.cons (.inr (beEnc_length' _ _)) (.cons (.inr h1) (.cons (.inr h2) (.cons (.inl rfl)
      (.cons (.inr (beEnc_length' _ _)) (.cons (.inr (beEnc_length' _ _)) (.cons (.inr h3) (.cons (.inr h4) .nil))))))))
  is := by
    rintro r row ⟨hid, hix, hnf, hty, trx, roll, space, pageNo, _, _, _, _, hr⟩ cs hv
    rw [hr] at hv
    generalize hm : cs.map (·.value) = vs at hv
    unfold IsIndexRow valueAt
    rw [hm]
    rcases hv with _ | ⟨v0, _ | ⟨v1, _ | ⟨_, _ | ⟨_, _ | ⟨v4, _ | ⟨v5, _ | ⟨v6, _ | ⟨_, _ | ⟨_, _ | _⟩⟩⟩⟩⟩⟩⟩⟩⟩
    have e0 := v0.2 (.inl ⟨rfl, rfl⟩)
    have e1 := v1.2 (.inl ⟨rfl, rfl⟩)
    have e5 := v5.2 (.inr ⟨rfl, rfl⟩)
    have e6 := v6.2 (.inr ⟨rfl, rfl⟩)
    rw [beVal8 hid] at e0
    rw [beVal8 hix] at e1
    rw [beVal4 hnf] at e5
    rw [beVal4 hty] at e6
    exact ⟨congrArg some e0, congrArg some e1, congrArg some (v4.1 (.inr rfl)), congrArg some e5, congrArg some e6⟩

theorem sysFields_table : SysTable FieldsLeaf [some 8, some 4] makeSysFieldsColumns IsFieldRow where
  cols := by decide
  len3 := by decide
  len10 := by decide
  trx := ⟨_, rfl, rfl, rfl⟩
  fit := by
    rintro r row ⟨_, _, trx, roll, h1, h2, hr⟩
    rw [hr]
    exact .cons (.inr (beEnc_length' _ _)) (.cons (.inr (beEnc_length' _ _)) (.cons (.inr h1) (.cons (.inr h2) (.cons (.inl rfl) .nil))))
  is := by
    rintro r row ⟨hid, hpos, trx, roll, _, _, hr⟩ cs hv
    rw [hr] at hv
    generalize hm : cs.map (·.value) = vs at hv
    unfold IsFieldRow valueAt
    rw [hm]
    rcases hv with _ | ⟨v0, _ | ⟨v1, _ | ⟨_, _ | ⟨_, _ | ⟨v4, _ | _⟩⟩⟩⟩⟩
    have e0 := v0.2 (.inl ⟨rfl, rfl⟩)
    have e1 := v1.2 (.inr ⟨rfl, rfl⟩)
    rw [beVal8 hid] at e0
    rw [beVal4 hpos] at e1
    exact ⟨congrArg some e0, congrArg some e1, congrArg some (v4.1 (.inr rfl))⟩

/-! ## Pages -/

theorem filePages_length (content : Bytes) : ∀ d ∈ filePages content, d.length = 16384 := by
  intro d hd
  obtain ⟨i, _, rfl⟩ := List.mem_map.mp hd
  exact pageImage_length _ _

theorem filePages_numbers (content : Bytes) : ((filePages content).map pageNumber).Nodup := by
  unfold filePages firstCopies
  rw [List.map_map]
  have key : ∀ n, (((List.range n).filter fun k => (List.range k).all fun i =>
      pageNumber (pageImage content i) != pageNumber (pageImage content k)).map (pageNumber ∘ pageImage content)).Nodup := by
    intro n
    induction n with
    | zero => exact List.nodup_nil
    | succ n ih =>
      rw [List.range_succ, List.filter_append, List.map_append, List.nodup_append]
      refine ⟨ih, ?_, ?_⟩
      · rw [List.filter_cons]
        split <;> simp
      · intro a ha b hb e
        subst e
        obtain ⟨i, hi, rfl⟩ := List.mem_map.mp ha
        obtain ⟨k, hk, he⟩ := List.mem_map.mp hb
        rw [List.mem_filter, List.mem_singleton] at hk
        obtain ⟨rfl, hall⟩ := hk
        have hi := (List.mem_filter.mp hi).1
        have := List.all_eq_true.mp hall i hi
        simp only [Function.comp_apply] at he
        rw [he] at this
        simp at this
  exact key _

theorem page_unique {P : List Bytes} (hn : (P.map pageNumber).Nodup) {a b : Bytes} (ha : a ∈ P) (hb : b ∈ P)
    (h : pageNumber a = pageNumber b) : a = b := List.inj_on_of_nodup_map hn ha hb h

/-- the pages of a tree are kept -/
theorem tree_kept {sp : SysHeader} {P : List Bytes} (hl : ∀ d ∈ P, d.length = 16384) (hn : (P.map pageNumber).Nodup)
    {id : Nat} {d : Bytes} {ds : List Bytes} (hf : P.filter (fun d => field d PAGE_INDEX_ID == id) = d :: ds)
    (hr : pageNumber d ∈ roots sp)
    (hothers : ∀ x ∈ P, field x PAGE_INDEX_ID = id → pageNumber x ∈ roots sp → x = d) :
    (P.foldl (keepPage sp) []).get? id = some ((d :: ds).map entryOf) := by
  obtain ⟨pre, post, rfl, h1, h2, h3⟩ := List.filter_eq_cons_iff.mp hf
  have hid : field d PAGE_INDEX_ID = id := by simpa using h2
  obtain ⟨D, e1, e2⟩ := C32_pages_partial sp pre post d hl hr (by
    intro x hx e
    have := h1 x hx
    rw [e, hid] at this
    simp at this) (by
    intro x hx e hxr
    have hxd := hothers x (by simp [hx]) (by rw [e, hid]) hxr
    rw [List.map_append, List.map_cons, List.nodup_append] at hn
    have := (List.nodup_cons.mp hn.2.1).1
    exact this (List.mem_map.mpr ⟨x, hx, by rw [hxd]⟩))
  rw [collectPages_eq sp _ hl] at e1
  injection e1 with e1
  rw [e1, ← hid, e2]
  rw [hid, hf]

theorem sysAllTables (env : Env) (ds : List Bytes) (hd : ∀ d ∈ ds, d.length = 16384) (rss : List (List TableRow))
    (hp : All2 (TreePage TablesLeaf [none]) ds rss) (cols : List Column) (hc : cols.map unval = makeSysTablesColumns) (s : DState) :
    ∃ rows t, All2 IsTableRow rows rss.flatten ∧ foldRows addTableRow s.tables rows = some t ∧
      allTablesLoop env (ds.map entryOf) cols s = .ok () { s with tables := t } := by
  induction hp generalizing cols s with
  | nil => exact ⟨[], s.tables, .nil, rfl, rfl⟩
  | @cons d rs ds rss h1 _ ih =>
    obtain ⟨r, p, e1, e2, e3, e4⟩ := sysPage sysTables_table env s.tables d (hd d (by simp)) rs h1 ⟨cols, s.out⟩ hc
    have hfold := foldRows_typed addTableRow (fun m r => m.put r.id (tableOf r)) IsTableRow addTableRow_eq r rs e4 s.tables
    obtain ⟨r', t, f1, f2, f3⟩ := ih (fun x hx => hd x (by simp [hx])) p.cols e3
      { s with tables := rs.foldl (fun m r => m.put r.id (tableOf r)) s.tables, out := p.out }
    refine ⟨r ++ r', t, all2_append e4 f1, by rw [foldRows_append, hfold]; exact f2, ?_⟩
    rw [List.map_cons, allTablesLoop]
    have e1' : parsePage env s.tables (entryOf d).data false 0 ⟨cols, s.out⟩ = .ok r p := e1
    beta_reduce
    rw [e1']
    dsimp only
    rw [hfold]
    dsimp only
    rw [f3]
    dsimp only
    rw [e2]

/-! ## Columns -/

/-- the columns of a table, as the rows of SYS_COLUMNS give them -/
def columnsOf (crs : List ColumnRow) (id : Nat) : List Column :=
  (crs.filter (·.tableId == id)).map fun r => { columnOf r with isBinary := r.mtype == 5 && bit r.prtype DATA_BINARY_TYPE }

/-- an index that is neither the primary key nor the generated clustered index -/
def Secondary (r : IndexRow) : Prop := r.name ≠ b! "PRIMARY" ∧ r.name ≠ b! "GEN_CLUST_INDEX"

instance (r : IndexRow) : Decidable (Secondary r) := inferInstanceAs (Decidable (_ ∧ _))

/-- `r` is the only index of the table that is not a secondary one. -/
def ClusteredBy (irs : List IndexRow) (id : Nat) (r : IndexRow) : Prop :=
  r ∈ irs ∧ r.tableId = id ∧ ∀ x ∈ irs, x.tableId = id → x = r ∨ x.id ≠ r.id ∧ Secondary x

instance (irs : List IndexRow) (id : Nat) (r : IndexRow) : Decidable (ClusteredBy irs id r) := inferInstanceAs (Decidable (_ ∧ _))

/-- the fields of an index -/
def fieldsOf (frs : List FieldRow) (r : IndexRow) : List IdxField := (frs.filter (·.indexId == r.id)).map fieldOf

/-- the columns with DB_TRX_ID and DB_ROLL_PTR after the first `n` -/
def withInternal (id n : Nat) (cols : List Column) : List Column :=
  cols.take n ++ [trxColumn id n, rollColumn id (n + 1)] ++ cols.drop n

/-- `r` is the clustered index of the table: bit 0 of its type is set. -/
def ClusteredIndex (irs : List IndexRow) (id : Nat) (r : IndexRow) : Prop :=
  r ∈ irs ∧ r.tableId = id ∧ r.itype % 2 = 1 ∧ ∀ x ∈ irs, x.tableId = id → x = r ∨ x.id ≠ r.id ∧ x.itype % 2 = 0

instance (irs : List IndexRow) (id : Nat) (r : IndexRow) : Decidable (ClusteredIndex irs id r) := inferInstanceAs (Decidable (_ ∧ _))

/-- The columns of the records of a table in the order in which they are stored: the key columns of the clustered index, or DB_ROW_ID if
the index is not a unique key (bit 1 of its type), then DB_TRX_ID, DB_ROLL_PTR and the other columns. -/
inductive Layout (irs : List IndexRow) (frs : List FieldRow) (id : Nat) (cols : List Column) : List Column → Prop where
  | generated {r} : ClusteredIndex irs id r → r.itype / 2 % 2 = 0 →
      Layout irs frs id cols (rowIdColumn id :: trxColumn id 1 :: rollColumn id 2 :: cols)
  | key {r} : ClusteredIndex irs id r → r.itype / 2 % 2 = 1 → r.nFields = (fieldsOf frs r).length → KeyOf (fieldsOf frs r) cols →
      Layout irs frs id cols (withInternal id r.nFields (clusteredOrder (fieldsOf frs r) cols))

/-- The tables the tool gets right: the clustered index is the primary key, which is the first column, or has been generated. -/
def Handled (irs : List IndexRow) (frs : List FieldRow) (crs : List ColumnRow) (id : Nat) : Prop :=
  ∃ r, ClusteredBy irs id r ∧ r.itype % 2 = 1 ∧ (r.name = b! "GEN_CLUST_INDEX" ∧ r.itype / 2 % 2 = 0 ∨
    r.name = b! "PRIMARY" ∧ r.itype / 2 % 2 = 1 ∧ ∃ c rest, columnsOf crs id = c :: rest ∧ (fieldsOf frs r).map (·.name) = [c.name])

/-- What is assumed of the tables of a file: at most one index is called PRIMARY or GEN_CLUST_INDEX, the names of the columns differ, and a
primary key has no more fields than the table has columns. -/
def UsualKeys (irs : List IndexRow) (frs : List FieldRow) (crs : List ColumnRow) (id : Nat) : Prop :=
  (∀ x ∈ irs, x.tableId = id → Secondary x) ∨ ∃ r, ClusteredBy irs id r ∧ (r.name = b! "GEN_CLUST_INDEX" ∨
    r.name = b! "PRIMARY" ∧ r.nFields ≤ (columnsOf crs id).length ∧ (fieldsOf frs r).length ≤ (columnsOf crs id).length ∧
      ((columnsOf crs id).map (·.name)).Nodup)

/-- What the tool makes of a primary key: a key of one column takes the place of the first column of the table, which is lost; the columns of
a key that consists of the first columns are reversed; for all other keys `C31_iff`, `C31_behind` and `C31_loses` say what becomes of them. -/
inductive Moved (fs : List IdxField) (cols : List Column) : List Column → Prop where
  | single {f p} (hp : p < cols.length) : fs = [f] → f.name = cols[p].name → Moved fs cols (cols.set 0 cols[p])
  | leading {k} : k ≤ cols.length → fs.map (·.name) = (cols.take k).map (·.name) → Moved fs cols ((cols.take k).reverse ++ cols.drop k)
  | other {moved} : fs.length ≤ cols.length → moveColumns2First fs cols = some moved → Moved fs cols moved

/-- The columns as the tool arranges them. -/
inductive Arranged (irs : List IndexRow) (frs : List FieldRow) (id : Nat) (cols : List Column) : List Column → Prop where
  | plain : (∀ x ∈ irs, x.tableId = id → Secondary x) → Arranged irs frs id cols cols
  | generated {r} : ClusteredBy irs id r → r.name = b! "GEN_CLUST_INDEX" →
      Arranged irs frs id cols (rowIdColumn id :: trxColumn id 1 :: rollColumn id 2 :: cols)
  | primary {r moved} : ClusteredBy irs id r → r.name = b! "PRIMARY" → r.nFields ≤ cols.length → (cols.map (·.name)).Nodup →
      Moved (fieldsOf frs r) cols moved → Arranged irs frs id cols (withInternal id r.nFields moved)

theorem lastWith_unique {α : Type} {p : α → Bool} {l : List α} {a : α} (ha : a ∈ l) (hp : p a = true)
    (hu : ∀ x ∈ l, p x = true → x = a) : lastWith p l = some a := by
  cases h : lastWith p l with
  | none =>
    unfold lastWith at h
    have := List.find?_eq_none.mp h a (by simpa using ha)
    exact absurd hp this
  | some x =>
    obtain ⟨h1, h2⟩ := lastWith_some h
    rw [hu x h2 h1]

theorem clustered_split {irs : List IndexRow} {frs : List FieldRow} {id : Nat} {r : IndexRow} (hc : ClusteredBy irs id r)
    {ixs : GoMap Index} (hw : ixs.WF) (hg : ∀ k, ixs.get? k = definedIndex irs frs id k) :
    ∃ l m, ixs = l ++ (r.id, { indexOf r with fields := (frs.filter (·.indexId == r.id)).map fieldOf }) :: m ∧
      (∀ x ∈ l, PlainIndex x.2) ∧ ∀ x ∈ m, PlainIndex x.2 := by
  obtain ⟨hr, hid, hu⟩ := hc
  have h1 : ixs.get? r.id = some { indexOf r with fields := (frs.filter (·.indexId == r.id)).map fieldOf } := by
    rw [hg, definedIndex, lastWith_unique hr (by simp [hid]) ?_]
    · rfl
    · intro x hx hp
      simp only [Bool.and_eq_true, beq_iff_eq] at hp
      rcases hu x hx hp.1 with h | h
      · exact h
      · exact absurd hp.2 h.1
  obtain ⟨l, m, hlm⟩ := List.append_of_mem ((GoMap.get?_iff hw _ _).mp h1)
  have hplain : ∀ x ∈ ixs, x.1 ≠ r.id → PlainIndex x.2 := by
    intro x hx hne
    have hx' := (GoMap.get?_iff hw x.1 x.2).mpr hx
    rw [hg, definedIndex] at hx'
    cases hl : lastWith (fun r => r.tableId == id && r.id == x.1) irs with
    | none => rw [hl] at hx'; cases hx'
    | some y =>
      rw [hl] at hx'
      injection hx' with hx'
      obtain ⟨h2, h3⟩ := lastWith_some hl
      simp only [Bool.and_eq_true, beq_iff_eq] at h2
      rcases hu y h3 h2.1 with h | h
      · rw [h] at h2; exact absurd h2.2.symm hne
      · rw [← hx']; exact h.2
  have hn := hw
  unfold GoMap.WF at hn
  rw [hlm, List.map_append, List.map_cons, List.nodup_append] at hn
  refine ⟨l, m, hlm, fun x hx => hplain x (by rw [hlm]; simp [hx]) ?_, fun x hx => hplain x (by rw [hlm]; simp [hx]) ?_⟩
  · exact fun e => hn.2.2 x.1 (List.mem_map_of_mem hx) r.id (by simp) e
  · exact fun e => (List.nodup_cons.mp hn.2.1).1 (List.mem_map.mpr ⟨x, hx, e⟩)

theorem arrange_layout {irs : List IndexRow} {frs : List FieldRow} {id : Nat} {t : Table} {cols : List Column}
    (hl : Arranged irs frs id t.columns cols) (hw : t.indexes.WF) (hg : ∀ k, t.indexes.get? k = definedIndex irs frs id k) :
    arrange id t = some cols := by
  cases hl with
  | plain h =>
    have hp : ∀ e ∈ t.indexes, PlainIndex e.2 := by
      intro x hx
      have hx' := (GoMap.get?_iff hw x.1 x.2).mpr hx
      rw [hg, definedIndex] at hx'
      cases hl : lastWith (fun r => r.tableId == id && r.id == x.1) irs with
      | none => rw [hl] at hx'; cases hx'
      | some y =>
        rw [hl] at hx'
        injection hx' with hx'
        obtain ⟨h2, h3⟩ := lastWith_some hl
        simp only [Bool.and_eq_true, beq_iff_eq] at h2
        rw [← hx']
        exact h y h3 h2.1
    unfold arrange
    rw [movePrimaryTable_none _ _ fun e he => (hp e he).1, Option.bind_some, addInternalTable_none id _ _ hp]
  | generated hc hn =>
    obtain ⟨l, m, hlm, h1, h2⟩ := clustered_split hc hw hg
    exact C30_generated id t l m _ hlm h1 h2 hn
  | @primary r moved hc hn hle hnd hm =>
    obtain ⟨l, m, hlm, h1, h2⟩ := clustered_split hc hw hg
    have hmove : moveColumns2First (fieldsOf frs r) t.columns = some moved ∧ moved.length = t.columns.length := by
      cases hm with
      | @single f p hp hfs hf => rw [hfs]; exact ⟨C31_single _ hnd f p hp hf, by simp⟩
      | @leading k hk hf => exact ⟨C31_leading _ hnd _ k hk hf, by simp; omega⟩
      | other hle h => exact ⟨h, by obtain ⟨_, h1, h2⟩ := C31_total _ _ hle; rw [h] at h1; injection h1 with h1; rw [h1]; exact h2⟩
    unfold arrange
    rw [hlm, movePrimaryTable_one l m _ _ (fun x hx => (h1 x hx).1) (fun x hx => (h2 x hx).1) hn]
    show (moveColumns2First (fieldsOf frs r) t.columns).bind _ = _
    rw [hmove.1, Option.bind_some, addInternalTable_primary id l m _ _ h1 h2 hn (by rw [hmove.2]; exact hle)]
    rfl

theorem mapTables_total (f : Nat → Table → Option Table) (m : TableMap) (h : ∀ e ∈ m, ∃ t, f e.1 e.2 = some t) :
    ∃ r, mapTables f m = some r ∧ r.map (·.1) = m.map (·.1) := by
  induction m with
  | nil => exact ⟨[], rfl, rfl⟩
  | cons e m ih =>
    obtain ⟨t, ht⟩ := h e (by simp)
    obtain ⟨r, hr, hk⟩ := ih fun x hx => h x (by simp [hx])
    refine ⟨(e.1, t) :: r, ?_, by rw [List.map_cons, List.map_cons, hk]⟩
    rw [mapTables, ht, hr]
    rfl

/-- rearranging all tables -/
theorem arrange_all (tables : TableMap) (hw : tables.WF) (h : ∀ id t, tables.get? id = some t → ∃ cols, arrange id t = some cols) :
    ∃ t1 t2, movePrimaryKeyFirst (sortColumns tables) = some t1 ∧ addInternalColumns t1 = some t2 ∧ t2.WF ∧
      ∀ id, t2.get? id = (tables.get? id).bind fun t => (arrange id t).map fun cols => { t with columns := cols } := by
  have hmem : ∀ e ∈ tables, ∃ cols, arrange e.1 e.2 = some cols := fun e he => h e.1 e.2 ((GoMap.get?_iff hw _ _).mpr he)
  obtain ⟨t1, h1, k1⟩ := mapTables_total (fun _ t => do return { t with columns := ← movePrimaryTable t.indexes t.columns }) tables (by
    intro e he
    obtain ⟨cols, hc⟩ := hmem e he
    unfold arrange at hc
    cases hm : movePrimaryTable e.2.indexes e.2.columns with
    | none => rw [hm] at hc; cases hc
    | some c => exact ⟨{ e.2 with columns := c }, rfl⟩)
  have w1 : t1.WF := by unfold GoMap.WF; rw [k1]; exact hw
  obtain ⟨t2, h2, k2⟩ := mapTables_total (fun id t => do return { t with columns := ← addInternalTable id t.indexes t.columns }) t1 (by
    intro e he
    have hg := (GoMap.get?_iff w1 e.1 e.2).mpr he
    rw [mapTables_get _ _ _ h1] at hg
    cases ht : tables.get? e.1 with
    | none => rw [ht] at hg; cases hg
    | some t =>
      rw [ht] at hg
      obtain ⟨cols, hc⟩ := h e.1 t ht
      unfold arrange at hc
      rw [Option.bind_some] at hg
      cases hm : movePrimaryTable t.indexes t.columns with
      | none => rw [hm] at hc; cases hc
      | some c =>
        rw [hm] at hc hg
        injection hg with hg
        rw [← hg]
        rw [Option.bind_some] at hc
        show ∃ t', (addInternalTable e.1 t.indexes c).bind _ = some t'
        rw [hc]
        exact ⟨_, rfl⟩)
  exact ⟨t1, t2, h1, h2, by unfold GoMap.WF; rw [k2, k1]; exact hw, C30_each_table tables t1 t2 h1 h2⟩

/-! ## The four loaders -/

theorem getAllTables_run (env : Env) (s : DState) (ds : List Bytes) (hd : ∀ d ∈ ds, d.length = 16384) (rss : List (List TableRow))
    (hp : All2 (TreePage TablesLeaf [none]) ds rss) (hg : s.dict.get? 1 = some (ds.map entryOf)) :
    ∃ rows t, All2 IsTableRow rows rss.flatten ∧ foldRows addTableRow s.tables rows = some t ∧
      getAllTables env s = .ok none { s with tables := t } := by
  obtain ⟨rows, t, h1, h2, h3⟩ := sysAllTables env ds hd rss hp makeSysTablesColumns (by decide) s
  refine ⟨rows, t, h1, h2, ?_⟩
  unfold getAllTables
  gom
  rw [show s.dict.get? SysTablesIdx = _ from hg]
  gom
  rw [h3]

theorem getAllColumns_run (env : Env) (s : DState) (ds : List Bytes) (hd : ∀ d ∈ ds, d.length = 16384) (rss : List (List ColumnRow))
    (hp : All2 (TreePage ColumnsLeaf [some 8, some 4]) ds rss) (hg : s.dict.get? 2 = some (ds.map entryOf)) :
    ∃ rows, All2 IsColumnRow rows rss.flatten ∧ ∀ t, foldRows addColumnRow s.tables rows = some t →
      getAllColumns env s = .ok none { s with tables := t } := by
  obtain ⟨rows, p, h1, h2, h3⟩ := sysPages sysColumns_table env s.tables ds hd rss hp ⟨makeSysColumnsColumns, s.out⟩ rfl
  refine ⟨rows, h3, fun t ht => ?_⟩
  unfold getAllColumns withCols
  gom
  rw [show s.dict.get? SysColumnsIdx = _ from hg]
  gom
  rw [h1]
  dsimp only
  rw [ht]
  gom
  rw [h2]
  rfl

theorem getAllIndexes_run (env : Env) (s : DState) (ds : List Bytes) (hd : ∀ d ∈ ds, d.length = 16384) (rss : List (List IndexRow))
    (hp : All2 (TreePage IndexesLeaf [some 8, some 8]) ds rss) (hg : s.dict.get? 3 = some (ds.map entryOf)) :
    ∃ rows, All2 IsIndexRow rows rss.flatten ∧ ∀ t e, foldRows (fun b r => addIndexRow env.ff b.1 b.2 r) (s.tables, none) rows = some (t, e) →
      getAllIndexes env s = .ok e { s with tables := t } := by
  obtain ⟨rows, p, h1, h2, h3⟩ := sysPages sysIndexes_table env s.tables ds hd rss hp ⟨makeSysIndexesColumns, s.out⟩ rfl
  refine ⟨rows, h3, fun t e ht => ?_⟩
  unfold getAllIndexes withCols
  gom
  rw [show s.dict.get? SysIndexesIdx = _ from hg]
  gom
  rw [h1]
  dsimp only
  rw [ht]
  gom
  rw [h2]
  rfl

theorem getAllFields_run (env : Env) (s : DState) (ds : List Bytes) (hd : ∀ d ∈ ds, d.length = 16384) (rss : List (List FieldRow))
    (hp : All2 (TreePage FieldsLeaf [some 8, some 4]) ds rss) (hg : s.dict.get? 4 = some (ds.map entryOf)) :
    ∃ rows, All2 IsFieldRow rows rss.flatten ∧ ∀ m, foldRows addFieldRow [] rows = some m →
      getAllFields env s = .ok none { s with tables := attachFields m s.tables } := by
  obtain ⟨rows, p, h1, h2, h3⟩ := sysPages sysFields_table env s.tables ds hd rss hp ⟨makeSysFieldsColumns, s.out⟩ rfl
  refine ⟨rows, h3, fun t ht => ?_⟩
  unfold getAllFields withCols
  gom
  rw [show s.dict.get? SysFieldsIdx = _ from hg]
  gom
  rw [h1]
  dsimp only
  rw [ht]
  gom
  rw [h2]
  rfl

theorem andThen_ok {σ : Type} {m k : GoM σ (Option Bytes)} {s s' : σ} (h : m s = .ok none s') : andThen m k s = k s' := by
  unfold andThen
  gom
  rw [h]

/-- the table of the id, once loaded -/
def LoadedTable (trs : List TableRow) (crs : List ColumnRow) (irs : List IndexRow) (frs : List FieldRow) (lay : Nat → List Column)
    (id : Nat) : Option Table → Prop
  | none => ∀ r ∈ trs, r.id ≠ id
  | some t => ∃ r ixs, lastWith (·.id == id) trs = some r ∧
      t = { tableOf r with columns := lay id, nullCount := nullable (columnsOf crs id), indexes := ixs } ∧ ixs.WF ∧
      ∀ k, ixs.get? k = definedIndex irs frs id k

/-- What **C56** says: `ParseDictPage` loads exactly the tables of SYS_TABLES, each with its columns in stored order and its indexes with their
fields, and prints nothing. -/
def Loads (env : Env) (content : Bytes) (trs : List TableRow) (crs : List ColumnRow) (irs : List IndexRow) (frs : List FieldRow)
    (lay : Nat → List Column) : Prop :=
  ∀ out, ∃ tables dict, parseDictPage env (.ok content) { out := out } = .ok none { tables, dict, out } ∧ tables.WF ∧
    ∀ id, LoadedTable trs crs irs frs lay id (tables.get? id)

/-- **C56**, as stated, for files in which the root of a tree is its first page (otherwise see `C32_false`) -/
def C56_statement : Prop :=
  ∀ (env : Env) (content : Bytes) (trs : List TableRow) (crs : List ColumnRow) (irs : List IndexRow) (frs : List FieldRow),
    SystemFile content trs crs irs frs → (∀ r ∈ irs, ∃ t ∈ trs, t.id = r.tableId) →
    ∀ lay : Nat → List Column, (∀ t ∈ trs, Layout irs frs t.id (columnsOf crs t.id) (lay t.id)) → Loads env content trs crs irs frs lay

/-- parse.go:45-126: `ParseDictPage` without the rearrangement of the columns at its end -/
def readDict (env : Env) (content : Bytes) : GoM DState (Option Bytes) := do
  let pages ← GoM.lift (parseFile content)
  let sp ← GoM.lift (findSysHeader pages)
  let s ← GoM.get
  let d ← GoM.lift (collectPages sp pages s.dict)
  GoM.modify (fun s => { s with dict := d })
  andThen (getAllTables env) <| andThen (getAllColumns env) <| andThen (getAllIndexes env) (getAllFields env)

/-- parse.go:128-137: the rearrangement -/
def arrangeDict : GoM DState (Option Bytes) := do
  let s ← GoM.get
  let t ← GoM.lift (movePrimaryKeyFirst (sortColumns s.tables))
  let t ← GoM.lift (addInternalColumns t)
  GoM.modify (·.setTables t)
  return none

theorem andThen_assoc {σ : Type} (m k l : GoM σ (Option Bytes)) : andThen (andThen m k) l = andThen m (andThen k l) := by
  unfold andThen
  funext s
  simp only [GoM.bind_run]
  cases m s with
  | ok e s' => cases e <;> rfl
  | panic s' => rfl
  | hang s' => rfl

theorem andThen_bind {σ α : Type} (m : GoM σ α) (k : α → GoM σ (Option Bytes)) (l : GoM σ (Option Bytes)) :
    andThen (m >>= k) l = m >>= fun a => andThen (k a) l := by
  unfold andThen
  exact GoM.bind_assoc _ _ _

theorem parseDictPage_split (env : Env) (content : Bytes) : parseDictPage env (.ok content) = andThen (readDict env content) arrangeDict := by
  unfold readDict
  simp only [andThen_bind, andThen_assoc]
  rfl

theorem andThen_error {σ : Type} {m k : GoM σ (Option Bytes)} {s s' : σ} {e : Bytes} (h : m s = .ok (some e) s') :
    andThen m k s = .ok (some e) s' := by
  unfold andThen
  gom
  rw [h]
  rfl

/-- the error for index rows of unknown tables: it names the last of them -/
def unknownTable (trs : List TableRow) (irs : List IndexRow) : Option Bytes :=
  (lastWith (fun r : IndexRow => trs.all (·.id != r.tableId)) irs).map fun r => b! "Table ID have not found " ++ dec r.tableId

theorem unknownTable_none {trs : List TableRow} {irs : List IndexRow} (hk : ∀ r ∈ irs, ∃ t ∈ trs, t.id = r.tableId) :
    unknownTable trs irs = none := by
  unfold unknownTable
  cases hl : lastWith (fun r : IndexRow => trs.all (·.id != r.tableId)) irs with
  | none => rfl
  | some r =>
    obtain ⟨h1, h2⟩ := lastWith_some hl
    obtain ⟨t, h3, h4⟩ := hk r h2
    have := List.all_eq_true.mp h1 t h3
    simp [h4] at this

/-- the tables before their columns are rearranged, or the error -/
theorem dict_rows (env : Env) (content : Bytes) (trs : List TableRow) (crs : List ColumnRow) (irs : List IndexRow)
    (frs : List FieldRow) (h : SystemFile content trs crs irs frs) (out : Out) :
    ∃ tables t3 dict, (readDict env content { out := out } = match unknownTable trs irs with
        | some e => .ok (some e) { tables := t3, dict, out }
        | none => .ok none { tables, dict, out }) ∧ tables.WF ∧
      (∀ id, tables.get? id = none → ∀ r ∈ trs, r.id ≠ id) ∧
      ∀ id t, tables.get? id = some t → (∃ r, lastWith (·.id == id) trs = some r ∧
        t = { tableOf r with columns := columnsOf crs id, nullCount := nullable (columnsOf crs id), indexes := t.indexes }) ∧
        t.indexes.WF ∧ ∀ k, t.indexes.get? k = definedIndex irs frs id k := by
  obtain ⟨hp, hmem, h7, ⟨d1, ds1, rss1, f1, r1, p1, rfl⟩, ⟨d2, ds2, rss2, f2, r2, p2, rfl⟩, ⟨d3, ds3, rss3, f3, r3, p3, rfl⟩,
    ⟨d4, ds4, rss4, f4, r4, p4, rfl⟩⟩ := h
  have hlen := filePages_length content
  have hnum := filePages_numbers content
  -- the header
  obtain ⟨pre, post, hsplit⟩ := List.append_of_mem hmem
  obtain ⟨sp, e1, s1, s2, s3, s4⟩ := C32_header pre post hp (by rw [hlen hp hmem]; decide) h7 (by
    intro x hx e
    rw [hsplit, List.map_append, List.map_cons, List.nodup_append] at hnum
    exact hnum.2.2 (pageNumber x) (List.mem_map_of_mem hx) (pageNumber hp) (by simp) (by rw [e, h7]))
  rw [← hsplit] at e1
  -- the roots
  have m1 : d1 ∈ filePages content ∧ field d1 PAGE_INDEX_ID = 1 := by
    have : d1 ∈ (filePages content).filter fun d => field d PAGE_INDEX_ID == 1 := by rw [f1]; simp
    simpa using this
  have m2 : d2 ∈ filePages content ∧ field d2 PAGE_INDEX_ID = 2 := by
    have : d2 ∈ (filePages content).filter fun d => field d PAGE_INDEX_ID == 2 := by rw [f2]; simp
    simpa using this
  have m3 : d3 ∈ filePages content ∧ field d3 PAGE_INDEX_ID = 3 := by
    have : d3 ∈ (filePages content).filter fun d => field d PAGE_INDEX_ID == 3 := by rw [f3]; simp
    simpa using this
  have m4 : d4 ∈ filePages content ∧ field d4 PAGE_INDEX_ID = 4 := by
    have : d4 ∈ (filePages content).filter fun d => field d PAGE_INDEX_ID == 4 := by rw [f4]; simp
    simpa using this
  have hroots : roots sp = [pageNumber d1, pageNumber d2, pageNumber d3, pageNumber d4] := by
    unfold roots; rw [s1, s2, s3, s4, r1, r2, r3, r4]
  have hroot : ∀ x ∈ filePages content, pageNumber x ∈ roots sp → x = d1 ∨ x = d2 ∨ x = d3 ∨ x = d4 := by
    intro x hx hr
    rw [hroots] at hr
    simp only [List.mem_cons, List.not_mem_nil, or_false] at hr
    rcases hr with hr | hr | hr | hr
    · exact .inl (page_unique hnum hx m1.1 hr)
    · exact .inr (.inl (page_unique hnum hx m2.1 hr))
    · exact .inr (.inr (.inl (page_unique hnum hx m3.1 hr)))
    · exact .inr (.inr (.inr (page_unique hnum hx m4.1 hr)))
  have k1 := tree_kept (sp := sp) hlen hnum f1 (by rw [hroots]; simp) (by
    intro x hx hi hr
    rcases hroot x hx hr with rfl | rfl | rfl | rfl
    · rfl
    · rw [m2.2] at hi; cases hi
    · rw [m3.2] at hi; cases hi
    · rw [m4.2] at hi; cases hi)
  have k2 := tree_kept (sp := sp) hlen hnum f2 (by rw [hroots]; simp) (by
    intro x hx hi hr
    rcases hroot x hx hr with rfl | rfl | rfl | rfl
    · rw [m1.2] at hi; cases hi
    · rfl
    · rw [m3.2] at hi; cases hi
    · rw [m4.2] at hi; cases hi)
  have k3 := tree_kept (sp := sp) hlen hnum f3 (by rw [hroots]; simp) (by
    intro x hx hi hr
    rcases hroot x hx hr with rfl | rfl | rfl | rfl
    · rw [m1.2] at hi; cases hi
    · rw [m2.2] at hi; cases hi
    · rfl
    · rw [m4.2] at hi; cases hi)
  have k4 := tree_kept (sp := sp) hlen hnum f4 (by rw [hroots]; simp) (by
    intro x hx hi hr
    rcases hroot x hx hr with rfl | rfl | rfl | rfl
    · rw [m1.2] at hi; cases hi
    · rw [m2.2] at hi; cases hi
    · rw [m3.2] at hi; cases hi
    · rfl)
  have hin : ∀ {id : Nat} {d : Bytes} {ds : List Bytes},
      (filePages content).filter (fun d => field d PAGE_INDEX_ID == id) = d :: ds → ∀ x ∈ d :: ds, x.length = 16384 := by
    intro id d ds hf x hx
    rw [← hf] at hx
    exact hlen x (List.mem_filter.mp hx).1
  -- the rows
  let D := (filePages content).foldl (keepPage sp) []
  let st : TableMap → DState := fun t => { tables := t, dict := D, out := out }
  obtain ⟨trows, t1, a1, b1, c1⟩ := getAllTables_run env (st []) _ (hin f1) rss1 p1 k1
  obtain ⟨crows, a2, c2⟩ := getAllColumns_run env (st t1) _ (hin f2) rss2 p2 k2
  obtain ⟨t1', t2, b1', b2, w2, g2⟩ := C33_rows trows crows _ _ a1 a2
  rw [show foldRows addTableRow [] trows = some t1 from b1] at b1'
  injection b1' with b1'
  subst b1'
  have c2 := c2 t2 b2
  obtain ⟨irows, a3, c3⟩ := getAllIndexes_run env (st t2) _ (hin f3) rss3 p3 k3
  have hempty : ∀ id t, t2.get? id = some t → t.indexes = [] := by
    intro id t ht
    rw [g2, definedTable] at ht
    cases hl : lastWith (fun r => r.id == id) rss1.flatten with
    | none => rw [hl] at ht; cases ht
    | some r => rw [hl] at ht; injection ht with ht; rw [← ht]; rfl
  obtain ⟨t3, err, _, b3, -⟩ := C34_indexes env.ff t2 w2 hempty irows [] _ [] a3 .nil
  have c3 := c3 t3 err b3
  obtain ⟨frows, a4, c4⟩ := getAllFields_run env (st t3) _ (hin f4) rss4 p4 k4
  obtain ⟨t3', err', m, b3', b4, w3, herr, g3, g4⟩ := C34_indexes env.ff t2 w2 hempty irows frows _ _ a3 a4
  rw [b3] at b3'
  injection b3' with b3'
  injection b3' with e3 e3'
  subst e3 e3'
  have hunknown : err = unknownTable rss1.flatten rss3.flatten := by
    rw [C34_error env.ff t2 irows _ a3 t3 err b3]
    unfold unknownTable
    congr 2
    funext r
    rw [g2, definedTable]
    cases hl : lastWith (fun x => x.id == r.tableId) rss1.flatten with
    | none =>
      unfold lastWith at hl
      have := List.find?_eq_none.mp hl
      refine (List.all_eq_true.mpr fun x hx => ?_).symm
      simpa using this x (by simpa using hx)
    | some x =>
      obtain ⟨h1, h2⟩ := lastWith_some hl
      refine (Bool.eq_false_iff.mpr fun hc => ?_).symm
      have := List.all_eq_true.mp hc x h2
      simp at this h1
      exact this h1
  have c4 := c4 m b4
  -- the columns
  have wA : (attachFields m t3).WF := by
    have : (attachFields m t3).map (·.1) = t3.map (·.1) := by
      unfold attachFields
      rw [List.map_map]
      rfl
    unfold GoMap.WF
    rw [this]
    exact w3
  have hshape : ∀ id t, (attachFields m t3).get? id = some t → ∃ r, lastWith (·.id == id) rss1.flatten = some r ∧
      t = { tableOf r with columns := columnsOf rss2.flatten id, nullCount := nullable (columnsOf rss2.flatten id), indexes := t.indexes } := by
    intro id t ht
    have := g3 id
    rw [ht, g2, definedTable] at this
    cases hl : lastWith (fun r => r.id == id) rss1.flatten with
    | none => rw [hl] at this; cases this
    | some r =>
      refine ⟨r, rfl, ?_⟩
      rw [hl] at this
      injection this with this
      cases t
      injection this with _ _ _ _ _ e6
      simp_all [columnsOf]
  refine ⟨_, t3, D, ?_, wA, ?_, fun id t ht => ⟨hshape id t ht, g4 id t ht⟩⟩
  · unfold readDict
    gom
    rw [parseFile_eq]
    gom
    rw [show (firstCopies content).map (fun i => rawPage (pageImage content i)) = (filePages content).map rawPage by
      unfold filePages; rw [List.map_map]; rfl, e1]
    gom
    rw [collectPages_eq sp _ hlen]
    gom
    rw [← hunknown]
    refine (andThen_ok c1).trans ((andThen_ok c2).trans ?_)
    cases err with
    | none => exact (andThen_ok c3).trans c4
    | some e => exact andThen_error c3
  · intro id hA r hr he
    have := g3 id
    rw [hA, g2, definedTable] at this
    cases hl : lastWith (fun r => r.id == id) rss1.flatten with
    | none =>
      unfold lastWith at hl
      have := List.find?_eq_none.mp hl r (by simpa using hr)
      simp [he] at this
    | some _ => rw [hl] at this; cases this

/-- the tables before their columns are rearranged -/
theorem dict_read (env : Env) (content : Bytes) (trs : List TableRow) (crs : List ColumnRow) (irs : List IndexRow)
    (frs : List FieldRow) (h : SystemFile content trs crs irs frs) (hk : ∀ r ∈ irs, ∃ t ∈ trs, t.id = r.tableId) (out : Out) :
    ∃ tables dict, readDict env content { out := out } = .ok none { tables, dict, out } ∧ tables.WF ∧
      (∀ id, tables.get? id = none → ∀ r ∈ trs, r.id ≠ id) ∧
      ∀ id t, tables.get? id = some t → (∃ r, lastWith (·.id == id) trs = some r ∧
        t = { tableOf r with columns := columnsOf crs id, nullCount := nullable (columnsOf crs id), indexes := t.indexes }) ∧
        t.indexes.WF ∧ ∀ k, t.indexes.get? k = definedIndex irs frs id k := by
  obtain ⟨tables, t3, dict, h1, h2⟩ := dict_rows env content trs crs irs frs h out
  rw [unknownTable_none hk] at h1
  exact ⟨tables, dict, h1, h2⟩

/-- The tables loaded, with the columns as the tool arranges them. -/
theorem C56_loads (env : Env) (content : Bytes) (trs : List TableRow) (crs : List ColumnRow) (irs : List IndexRow)
    (frs : List FieldRow) (h : SystemFile content trs crs irs frs) (hk : ∀ r ∈ irs, ∃ t ∈ trs, t.id = r.tableId)
    (lay : Nat → List Column) (hlay : ∀ t ∈ trs, Arranged irs frs t.id (columnsOf crs t.id) (lay t.id)) :
    Loads env content trs crs irs frs lay := by
  intro out
  obtain ⟨tA, D, hread, wA, gA, hA⟩ := dict_read env content trs crs irs frs h hk out
  have harr : ∀ id t, tA.get? id = some t → arrange id t = some (lay id) := by
    intro id t ht
    obtain ⟨⟨r, hr, he⟩, hw, hg⟩ := hA id t ht
    obtain ⟨hid, hmem⟩ := lastWith_some hr
    have hid : r.id = id := by simpa using hid
    have hL := hlay r hmem
    rw [hid] at hL
    exact arrange_layout (by rw [he]; exact hL) hw hg
  obtain ⟨t4, t5, b5, b6, w5, g5⟩ := arrange_all _ wA fun id t ht => ⟨_, harr id t ht⟩
  refine ⟨t5, D, ?_, w5, ?_⟩
  · rw [parseDictPage_split]
    refine (andThen_ok hread).trans ?_
    unfold arrangeDict
    gom
    rw [b5]
    gom
    rw [b6]
    gom
    rfl
  · intro id
    rw [g5]
    cases hg : tA.get? id with
    | none => exact gA id hg
    | some t =>
      obtain ⟨⟨r, hr, he⟩, hi⟩ := hA id t hg
      rw [Option.bind_some, harr id t hg]
      exact ⟨r, t.indexes, hr, by rw [he], hi⟩

theorem handled_layout {irs : List IndexRow} {frs : List FieldRow} {crs : List ColumnRow} {id : Nat} (h : Handled irs frs crs id)
    {l : List Column} (hl : Layout irs frs id (columnsOf crs id) l) :
    Arranged irs frs id (columnsOf crs id) l ∧ (l = rowIdColumn id :: trxColumn id 1 :: rollColumn id 2 :: columnsOf crs id ∨
      ∃ c rest, columnsOf crs id = c :: rest ∧ l = c :: trxColumn id 1 :: rollColumn id 2 :: rest) := by
  obtain ⟨r, hc, hodd, hr⟩ := h
  have same : ∀ r', ClusteredIndex irs id r' → r' = r := by
    intro r' h'
    rcases h'.2.2.2 r hc.1 hc.2.1 with h | h
    · exact h.symm
    · omega
  cases hl with
  | generated h' hi =>
    cases same _ h'
    rcases hr with ⟨hn, _⟩ | ⟨_, h1, _⟩
    · exact ⟨.generated hc hn, .inl rfl⟩
    · omega
  | @key r' h' hi hn hK =>
    cases same _ h'
    rcases hr with ⟨_, h0⟩ | ⟨hname, _, c, rest, hcs, h1⟩
    · omega
    · rw [hcs] at hK ⊢
      obtain ⟨f, hfs, hfc⟩ : ∃ f, fieldsOf frs r = [f] ∧ f.name = c.name := by
        cases hfs : fieldsOf frs r with
        | nil => rw [hfs] at h1; simp at h1
        | cons f l =>
          rw [hfs] at h1
          simp only [List.map_cons, List.cons.injEq, List.map_eq_nil_iff] at h1
          exact ⟨f, by rw [h1.2], h1.1⟩
      have h2 := C31_first_column_partial c rest hK.1 f hfc
      rw [C31_single (c :: rest) hK.1 f 0 (by simp) hfc] at h2
      injection h2 with h2
      have hn1 : r.nFields = 1 := by rw [hn, hfs]; rfl
      rw [hfs, ← h2]
      exact ⟨.primary hc hname (by rw [hn1]; simp) hK.1 (.single (by simp) hfs hfc), .inr ⟨c, rest, rfl, by rw [hn1]; rfl⟩⟩

/-- the tool arranges the columns of a table in one way -/
theorem arranged_unique {irs : List IndexRow} {frs : List FieldRow} {id : Nat} {cols l l' : List Column} {ixs : GoMap Index} (hw : ixs.WF)
    (hg : ∀ k, ixs.get? k = definedIndex irs frs id k) (h : Arranged irs frs id cols l) (h' : Arranged irs frs id cols l') : l = l' := by
  have h1 := arrange_layout (t := { columns := cols, indexes := ixs }) h hw hg
  rw [arrange_layout (t := { columns := cols, indexes := ixs }) h' hw hg] at h1
  exact (Option.some.inj h1).symm

/-- the tool arranges the columns of every table -/
theorem UsualKeys.arranged {irs : List IndexRow} {frs : List FieldRow} {crs : List ColumnRow} {id : Nat} (h : UsualKeys irs frs crs id) :
    ∃ l, Arranged irs frs id (columnsOf crs id) l := by
  rcases h with h | ⟨r, hc, hn | ⟨hn, h1, h2, h3⟩⟩
  · exact ⟨_, .plain h⟩
  · exact ⟨_, .generated hc hn⟩
  · obtain ⟨moved, hm, _⟩ := C31_total _ _ h2
    exact ⟨_, .primary hc hn h1 h3 (.other h2 hm)⟩

/-- the columns of each table of a file, as the tool arranges them -/
theorem loads_arranged (env : Env) (content : Bytes) (trs : List TableRow) (crs : List ColumnRow) (irs : List IndexRow)
    (frs : List FieldRow) (h : SystemFile content trs crs irs frs) (hk : ∀ r ∈ irs, ∃ t ∈ trs, t.id = r.tableId)
    (harr : ∀ t ∈ trs, UsualKeys irs frs crs t.id) :
    ∃ lay, Loads env content trs crs irs frs lay ∧ ∀ t ∈ trs, ∀ l, Arranged irs frs t.id (columnsOf crs t.id) l → lay t.id = l := by
  have hall : ∀ id, ∃ l, ∀ t ∈ trs, t.id = id → Arranged irs frs id (columnsOf crs id) l := by
    intro id
    by_cases hex : ∃ t ∈ trs, t.id = id
    · obtain ⟨t, ht, rfl⟩ := hex
      obtain ⟨l, hl⟩ := (harr t ht).arranged
      exact ⟨l, fun _ _ _ => hl⟩
    · exact ⟨[], fun t ht he => absurd ⟨t, ht, he⟩ hex⟩
  choose lay hlay using hall
  have hload := C56_loads env content trs crs irs frs h hk lay fun t ht => hlay t.id t ht rfl
  refine ⟨lay, hload, fun t ht l hl => ?_⟩
  obtain ⟨tables, _, _, _, h3⟩ := hload []
  have := h3 t.id
  cases hg : tables.get? t.id with
  | none => rw [hg] at this; exact absurd rfl (this t ht)
  | some tb =>
    rw [hg] at this
    obtain ⟨r, ixs, _, _, hw, hg⟩ := this
    exact arranged_unique hw hg (hlay t.id t ht rfl) hl

/-- **C56**, in part: all tables of SYS_TABLES are loaded, with their names, spaces and indexes, and those whose clustered index has been
generated or is a primary key that is the first column have their columns in stored order.  Missing: other clustered indexes, for which the
claim is false (`C56_false`, `C56_unique_key`); `C56_loads` says what is loaded. -/
theorem C56_dictionary_partial (env : Env) (content : Bytes) (trs : List TableRow) (crs : List ColumnRow) (irs : List IndexRow)
    (frs : List FieldRow) (h : SystemFile content trs crs irs frs) (hk : ∀ r ∈ irs, ∃ t ∈ trs, t.id = r.tableId)
    (harr : ∀ t ∈ trs, UsualKeys irs frs crs t.id) :
    ∃ lay, Loads env content trs crs irs frs lay ∧
      ∀ t ∈ trs, Handled irs frs crs t.id → ∀ l, Layout irs frs t.id (columnsOf crs t.id) l → lay t.id = l := by
  obtain ⟨lay, h1, h2⟩ := loads_arranged env content trs crs irs frs h hk harr
  exact ⟨lay, h1, fun t ht hh l hl => h2 t ht l (handled_layout hh hl).1⟩

theorem find_named {cols : List Column} (hn : (cols.map (·.name)).Nodup) {c : Column} (hc : c ∈ cols) :
    cols.find? (·.name == c.name) = some c := by
  induction cols with
  | nil => cases hc
  | cons a l ih =>
    rw [List.map_cons, List.nodup_cons] at hn
    rw [List.find?_cons]
    rcases List.mem_cons.mp hc with rfl | h
    · simp
    · have : a.name ≠ c.name := fun e => hn.1 (e ▸ List.mem_map_of_mem h)
      rw [show (a.name == c.name) = false by simpa using this]
      exact ih hn.2 h

theorem clusteredOrder_length {fs : List IdxField} {cols : List Column} (hn : (cols.map (·.name)).Nodup) :
    cols.length ≤ (clusteredOrder fs cols).length := by
  refine (List.Nodup.subperm hn.of_map fun c hc => ?_).length_le
  unfold clusteredOrder
  rw [List.mem_append]
  by_cases h : c.name ∈ fs.map (·.name)
  · obtain ⟨f, hf, he⟩ := List.mem_map.mp h
    exact .inl (List.mem_filterMap.mpr ⟨f, hf, by unfold columnNamed; rw [he]; exact find_named hn hc⟩)
  · exact .inr (List.mem_filter.mpr ⟨hc, by simpa using h⟩)

/-- stored records have at least two columns more than the table -/
theorem layout_length {irs : List IndexRow} {frs : List FieldRow} {id : Nat} {cols l : List Column} (h : Layout irs frs id cols l) :
    cols.length + 2 ≤ l.length := by
  cases h with
  | generated _ _ => simp only [List.length_cons]; omega
  | @key r _ _ _ hk =>
    have := clusteredOrder_length (fs := fieldsOf frs r) hk.1
    unfold withInternal
    simp only [List.length_append, List.length_take, List.length_drop, List.length_cons, List.length_nil]
    omega

/-- Against C56: the clustered index is recognised by its name.  A table without a primary key that is clustered by a unique key is loaded
without the hidden columns of its records. -/
theorem C56_unique_key (env : Env) (content : Bytes) (trs : List TableRow) (crs : List ColumnRow) (irs : List IndexRow)
    (frs : List FieldRow) (h : SystemFile content trs crs irs frs) (hk : ∀ r ∈ irs, ∃ t ∈ trs, t.id = r.tableId)
    (harr : ∀ t ∈ trs, UsualKeys irs frs crs t.id) (t : TableRow) (ht : t ∈ trs)
    (hs : ∀ x ∈ irs, x.tableId = t.id → Secondary x) (out : Out) :
    ∃ tables dict tb, parseDictPage env (.ok content) { out := out } = .ok none { tables, dict, out } ∧ tables.get? t.id = some tb ∧
      tb.columns = columnsOf crs t.id ∧ ∀ l, Layout irs frs t.id (columnsOf crs t.id) l → l.length ≠ tb.columns.length := by
  obtain ⟨lay, h1, h2⟩ := loads_arranged env content trs crs irs frs h hk harr
  obtain ⟨tables, dict, h3, h4, h5⟩ := h1 out
  have := h5 t.id
  cases hg : tables.get? t.id with
  | none => rw [hg] at this; exact absurd rfl (this t ht)
  | some tb =>
    rw [hg] at this
    obtain ⟨r, ixs, e1, e2, e3⟩ := this
    have hc : tb.columns = columnsOf crs t.id := by rw [e2, h2 t ht _ (.plain hs)]
    refine ⟨tables, dict, tb, h3, hg, hc, fun l hl => ?_⟩
    have := layout_length hl
    rw [hc]
    omega

end Verif.Props
