import Verif.Props.OtherTables
import Verif.Props.Partitions
/-!
# C107: deleted rows of the dictionary

When a table is dropped or renamed, its rows in the tables of the dictionary are marked as deleted; they stay in the system tablespace until they are
purged.  A table that is renamed has then two rows in SYS_TABLES with its id, since that table is clustered by the name.
-/

set_option linter.unusedSimpArgs false

namespace Verif.Props
open Verif Spec

/-- A page of a dictionary tree, and the rows stored in it, with their delete marks. -/
inductive MarkedPage {ρ : Type} (leaf : ρ → List OldCell → Prop) (key : List (Option Nat)) (d : Bytes) : List (Bool × ρ) → Prop where
  | leaf {os rows rs} (hc : isCompact d = false) (hl : Linked d false (infimumAt false) os) (hr : All2 (OldRecordAt d) os rows)
      (hs : All2 (fun r row => leaf r.2 row) rs rows) (hm : All2 (fun o r => deleteMarked d false o = r.1) os rs) : MarkedPage leaf key d rs
  | node {o os row} (hc : isCompact d = false) (hl : Linked d false (infimumAt false) (o :: os)) (hr : OldRecordAt d o row)
      (hn : NodePointer key row) : MarkedPage leaf key d []

/-- The pages of a dictionary tree, and its rows with their delete marks. -/
def MarkedTree {ρ : Type} (pages : List Bytes) (root id : Nat) (leaf : ρ → List OldCell → Prop) (key : List (Option Nat)) (rows : List (Bool × ρ)) : Prop :=
  ∃ (d : Bytes) (ds : List Bytes) (rss : List (List (Bool × ρ))), pages.filter (fun d => field d PAGE_INDEX_ID == id) = d :: ds ∧ pageNumber d = root ∧
    All2 (MarkedPage leaf key) (d :: ds) rss ∧ rows = rss.flatten

/-- A system tablespace with these rows in the dictionary, some of which are marked as deleted. -/
def MarkedSystem (content : Bytes) (mtrs : List (Bool × TableRow)) (mcrs : List (Bool × ColumnRow)) (mirs : List (Bool × IndexRow))
    (mfrs : List (Bool × FieldRow)) : Prop :=
  ∃ h ∈ filePages content, pageNumber h = 7 ∧
    MarkedTree (filePages content) (field h DICT_HDR_TABLES) 1 TablesLeaf [none] mtrs ∧
    MarkedTree (filePages content) (field h DICT_HDR_COLUMNS) 2 ColumnsLeaf [some 8, some 4] mcrs ∧
    MarkedTree (filePages content) (field h DICT_HDR_INDEXES) 3 IndexesLeaf [some 8, some 8] mirs ∧
    MarkedTree (filePages content) (field h DICT_HDR_FIELDS) 4 FieldsLeaf [some 8, some 4] mfrs

/-- all rows -/
def both {ρ : Type} (l : List (Bool × ρ)) : List ρ := l.map (·.2)
/-- the rows that are not deleted -/
def living {ρ : Type} (l : List (Bool × ρ)) : List ρ := (l.filter fun r => !r.1).map (·.2)

/-- **C107**, as stated: as long as the deleted rows of the dictionary are not purged, the command does the same for a table as afterwards: with a system
file `sys'` that holds only the rows that are not deleted. -/
def C107_statement : Prop :=
  ∀ (env : Env) (a : FromData) (sys sys' : Bytes) (mtrs : List (Bool × TableRow)) (mcrs : List (Bool × ColumnRow)) (mirs : List (Bool × IndexRow))
    (mfrs : List (Bool × FieldRow)) (t : TableRow), MarkedSystem sys mtrs mcrs mirs mfrs →
    Dictionary sys' (living mtrs) (living mcrs) (living mirs) (living mfrs) →
    (∀ t ∈ living mtrs, UsualKeys (living mirs) (living mfrs) (living mcrs) t.id) → t ∈ living mtrs → t.name = a.db ++ b! "/" ++ a.table →
    ∀ out, fromDataFile env { a with sysFile := .ok sys } out = fromDataFile env { a with sysFile := .ok sys' } out

/-! ### The marks are not looked at -/

theorem marked_tree_page {ρ : Type} {leaf : ρ → List OldCell → Prop} {key : List (Option Nat)} {d : Bytes} {rs : List (Bool × ρ)}
    (h : MarkedPage leaf key d rs) : TreePage leaf key d (both rs) := by
  cases h with
  | leaf hc hl hr hs hm =>
    refine .leaf hc hl hr ?_
    clear hm hr
    induction hs with
    | nil => exact .nil
    | cons h _ ih => exact .cons h ih
  | node hc hl hr hn => exact .node hc hl hr hn

theorem marked_rows {ρ : Type} {pages : List Bytes} {root id : Nat} {leaf : ρ → List OldCell → Prop} {key : List (Option Nat)} {rows : List (Bool × ρ)}
    (h : MarkedTree pages root id leaf key rows) : Tree pages root id leaf key (both rows) := by
  obtain ⟨d, ds, rss, h1, h2, h3, h4⟩ := h
  refine ⟨d, ds, rss.map both, h1, h2, ?_, ?_⟩
  · clear h1 h2
    generalize d :: ds = dd at h3
    clear h4
    induction h3 with
    | nil => exact .nil
    | cons h _ ih => exact .cons (marked_tree_page h) ih
  · rw [h4]
    unfold both
    rw [List.map_flatten]

theorem marked_system {content : Bytes} {mtrs : List (Bool × TableRow)} {mcrs : List (Bool × ColumnRow)} {mirs : List (Bool × IndexRow)}
    {mfrs : List (Bool × FieldRow)} (h : MarkedSystem content mtrs mcrs mirs mfrs) :
    SystemFile content (both mtrs) (both mcrs) (both mirs) (both mfrs) := by
  obtain ⟨d, h0, h7, h1, h2, h3, h4⟩ := h
  exact ⟨d, h0, h7, marked_rows h1, marked_rows h2, marked_rows h3, marked_rows h4⟩

/-- filtering out deleted rows that are not meant anyway -/
theorem living_filter {ρ : Type} (p : ρ → Bool) (l : List (Bool × ρ)) (h : ∀ r, (true, r) ∈ l → p r = false) : (both l).filter p = (living l).filter p := by
  induction l with
  | nil => rfl
  | cons x l ih =>
    obtain ⟨m, r⟩ := x
    have ih := ih fun r hr => h r (by simp [hr])
    unfold both living at ih ⊢
    cases m with
    | false =>
      rw [List.filter_cons_of_pos (by rfl), List.map_cons, List.map_cons, List.filter_cons, List.filter_cons, ih]
    | true =>
      rw [List.filter_cons_of_neg (by simp), List.map_cons, List.filter_cons_of_neg (by rw [h r (by simp)]; simp), ih]

theorem living_both {ρ : Type} {l : List (Bool × ρ)} {r : ρ} (h : r ∈ living l) : r ∈ both l := by
  unfold living at h
  obtain ⟨x, hx, rfl⟩ := List.mem_map.mp h
  exact List.mem_map_of_mem (List.mem_filter.mp hx).1

/-- **C107 (partial).** Deleted rows of other tables have no influence: tables that have been dropped, if no other row has their ids or names.  Missing:
deleted rows with the id of a table that exists, as after renaming it (`C107_renamed`, `C107_false`). -/
theorem C107_dropped_partial (env : Env) (a : FromData) (sys sys' : Bytes) (mtrs : List (Bool × TableRow)) (mcrs : List (Bool × ColumnRow))
    (mirs : List (Bool × IndexRow)) (mfrs : List (Bool × FieldRow)) (t : TableRow) (hsys : MarkedSystem sys mtrs mcrs mirs mfrs)
    (hdict' : Dictionary sys' (living mtrs) (living mcrs) (living mirs) (living mfrs))
    (hkeys' : ∀ t ∈ living mtrs, UsualKeys (living mirs) (living mfrs) (living mcrs) t.id) (ht : t ∈ living mtrs)
    (hname : t.name = a.db ++ b! "/" ++ a.table)
    (hidx : ∀ r ∈ both mirs, ∃ t ∈ both mtrs, t.id = r.tableId) (hids : ((both mtrs).map (·.id)).Nodup)
    (hnames : ((both mtrs).map (·.name)).Nodup ∧ ∀ t ∈ both mtrs, TableName t.name)
    (hkeys : ∀ t ∈ both mtrs, UsualKeys (both mirs) (both mfrs) (both mcrs) t.id)
    (hcol : ∀ c, (true, c) ∈ mcrs → c.tableId ≠ t.id) (hind : ∀ r, (true, r) ∈ mirs → r.tableId ≠ t.id)
    (hfld : ∀ f, (true, f) ∈ mfrs → ∀ r ∈ both mirs, r.tableId = t.id → f.indexId ≠ r.id) (out : Out) :
    fromDataFile env { a with sysFile := .ok sys } out = fromDataFile env { a with sysFile := .ok sys' } out :=
  C104_other_tables env a sys sys' (both mtrs) (living mtrs) (both mcrs) (living mcrs) (both mirs) (living mirs) (both mfrs) (living mfrs) t
    ⟨marked_system hsys, hidx, hids, hnames⟩ hdict' hkeys hkeys' (living_both ht) ht hname
    ⟨living_filter _ _ fun c hc => by simpa using hcol c hc, living_filter _ _ fun r hr => by simpa using hind r hr,
      fun r hr hi => living_filter _ _ fun f hf => by simpa using hfld f hf r hr hi⟩ out

/-- no row that counts has the name -/
theorem lookup_last {trs : List TableRow} {crs : List ColumnRow} {irs : List IndexRow} {frs : List FieldRow} {lay : Nat → List Column}
    {tables : TableMap} (hw : tables.WF) (h : ∀ id, LoadedTable trs crs irs frs lay id (tables.get? id)) {db table : Bytes}
    (hno : ∀ t ∈ trs, lastWith (·.id == t.id) trs = some t → splitName t.name ≠ (db, table)) : ¬ InDictionary tables db table := by
  rintro ⟨e, he, hx⟩
  have := h e.1
  rw [(GoMap.get?_iff hw e.1 e.2).mpr he] at this
  obtain ⟨r, ixs, e1, e2, -⟩ := this
  obtain ⟨hid, hmem⟩ := lastWith_some e1
  have hid : r.id = e.1 := by simpa using hid
  refine hno r hmem (by rw [hid]; exact e1) ?_
  rw [← hx.1, ← hx.2, e2]
  rfl

/-- **C107, renamed tables.** If the last row with the id of a table has another name - the deleted row with its old name, if that comes behind the new one in
the order of names - and no other table has its name, none of its rows is printed: the command aborts if there is one. -/
theorem C107_renamed (env : Env) (a : FromData) (sys ibd : Bytes) (mtrs : List (Bool × TableRow)) (mcrs : List (Bool × ColumnRow))
    (mirs : List (Bool × IndexRow)) (mfrs : List (Bool × FieldRow)) (t u : TableRow) (hsys : MarkedSystem sys mtrs mcrs mirs mfrs)
    (hidx : ∀ r ∈ both mirs, ∃ t ∈ both mtrs, t.id = r.tableId) (hkeys : ∀ t ∈ both mtrs, UsualKeys (both mirs) (both mfrs) (both mcrs) t.id)
    (hlast : lastWith (·.id == t.id) (both mtrs) = some u) (hu : splitName u.name ≠ (a.db, a.table))
    (hother : ∀ x ∈ both mtrs, x.id ≠ t.id → splitName x.name ≠ (a.db, a.table)) (hibd : a.tableFile = .ok ibd) (out : Out) :
    fromDataFile env { a with sysFile := .ok sys } out =
      if ∃ d ∈ selectedPages ibd (a.opType == b! "RecoveryData"), HasRecord (a.opType == b! "RecoveryData") d then .panic out else .ok () out := by
  obtain ⟨lay, hload, -⟩ := loads_arranged env sys _ _ _ _ (marked_system hsys) hidx hkeys
  obtain ⟨tables, dict, h1, h2, h3⟩ := hload out
  unfold fromDataFile
  dsimp only
  rw [h1, hibd]
  dsimp only
  have hno : ¬ InDictionary tables a.db a.table := lookup_last h2 h3 fun x hx hl => by
    by_cases hi : x.id = t.id
    · rw [hi, hlast] at hl
      cases hl
      exact hu
    · exact hother x hx hi
  rw [C28_unknown_table_partial env ibd a.db a.table _ ⟨tables, out⟩ hno]
  by_cases hx : ∃ d ∈ selectedPages ibd (a.opType == b! "RecoveryData"), HasRecord (a.opType == b! "RecoveryData") d
  · rw [if_pos hx, if_pos hx]
  · rw [if_neg hx, if_neg hx]

/-! ### The table shop.t, renamed to shop.a -/

def renamedTables : List (Bool × TableRow) := [(false, ⟨b! "shop/a", 20, 5⟩), (true, ⟨b! "shop/t", 20, 5⟩)]
def unmarked {ρ : Type} (l : List ρ) : List (Bool × ρ) := l.map fun r => (false, r)
def newTableRec : List OldCell :=
  [cellOf (b! "shop/a"), cellOf (zeros 6), cellOf (zeros 7), cellOf (beEnc 8 20), cellOf (beEnc 4 2), cellOf (beEnc 4 1), cellOf (zeros 8),
    cellOf (zeros 4), ⟨[], true⟩, cellOf (beEnc 4 5)]
/-- a record with the delete mark, up to its data -/
def goneRecord (w : Nat) (row : List OldCell) (next : Nat) : Bytes :=
  endInfos w 0 row ++ [32, 0, 0] ++ [if w = 1 then 1 else 0] ++ beEnc 2 next
def renamedPage : Bytes :=
  indexTop 8 1 141 ++ oldRecord 1 newTableRec 208 ++ oldData newTableRec ++ goneRecord 1 shopTableRec 116 ++ oldData shopTableRec
/-- another table, shop.z, that has been dropped -/
def droppedTables : List (Bool × TableRow) := [(false, ⟨b! "shop/t", 20, 5⟩), (true, ⟨b! "shop/z", 21, 6⟩)]
def droppedRec : List OldCell :=
  [cellOf (b! "shop/z"), cellOf (zeros 6), cellOf (zeros 7), cellOf (beEnc 8 21), cellOf (beEnc 4 2), cellOf (beEnc 4 1), cellOf (zeros 8),
    cellOf (zeros 4), ⟨[], true⟩, cellOf (beEnc 4 6)]
def droppedPage : Bytes :=
  indexTop 8 1 141 ++ oldRecord 1 shopTableRec 208 ++ oldData shopTableRec ++ goneRecord 1 droppedRec 116 ++ oldData droppedRec
def renamedPages (p : Bytes) : List Bytes := [shopHeader, p, shopColumnsRoot, shopIndexesPage idKey, shopFieldsPage idKey, shopColumnsPage]
/-- the system file with this page for SYS_TABLES -/
def renamedFile (p : Bytes) : Bytes := ((renamedPages p).map pad).flatten
def renamedSys : Bytes := renamedFile renamedPage
/-- the system file when the row is purged -/
def purgedSys : Bytes := writeSystem (living renamedTables) shopColumns (shopIndexes idKey) (shopFields idKey)
def renamedArgs : FromData := { shopArgs (b! "ann") false with table := b! "a" }

set_option maxRecDepth 4000 in
theorem renamed_length {q : Bytes} (hq : q = renamedPage ∨ q = droppedPage) : ∀ p ∈ renamedPages q, 90 ≤ p.length ∧ p.length ≤ 300 := by
  rcases hq with rfl | rfl <;> decide

theorem renamed_images {q : Bytes} (hq : q = renamedPage ∨ q = droppedPage) : filePages (renamedFile q) = (renamedPages q).map pad := by
  refine images_flatten _ ?_ ?_
  · intro d hd
    obtain ⟨p, hp, rfl⟩ := List.mem_map.mp hd
    exact pad_length p (by have := renamed_length hq p hp; omega)
  · rw [List.map_map, List.map_congr_left (f := pageNumber ∘ pad) (g := pageNumber) fun p hp =>
      numAt_pad p 4 4 (by have := renamed_length hq p hp; omega)]
    rcases hq with rfl | rfl <;> decide

theorem renamed_filter {q : Bytes} (hq : q = renamedPage ∨ q = droppedPage) (id : Nat) : (filePages (renamedFile q)).filter (fun d => field d PAGE_INDEX_ID == id) =
    ((renamedPages q).filter fun d => field d PAGE_INDEX_ID == id).map pad := by
  rw [renamed_images hq, List.filter_map]
  refine congrArg (List.map pad) (List.filter_congr fun p hp => ?_)
  rw [Function.comp_apply, show field (pad p) PAGE_INDEX_ID = field p PAGE_INDEX_ID from
    numAt_pad p 66 8 (by have := renamed_length hq p hp; omega)]

theorem goneRecord_at (d : Bytes) (o w : Nat) (row : List OldCell) (next : Nat) (hw : w = 1 ∨ w = 2)
    (ho : w * row.length + 6 ≤ o) (hd : o + (oldData row).length ≤ d.length)
    (h : sub d (o - (w * row.length + 6)) (w * row.length + 6 + (oldData row).length) = goneRecord w row next ++ oldData row) :
    RedundantAt d o w row := by
  refine ⟨d.take (o - (w * row.length + 6)), [32, 0, 0], if w = 1 then 1 else 0, beEnc 2 next,
    d.drop (o + (oldData row).length), rfl, beEnc_length' 2 next, ?_, ?_, ?_⟩
  · rcases hw with rfl | rfl <;> decide
  · conv => lhs; rw [split_sub d (o - (w * row.length + 6)) (w * row.length + 6 + (oldData row).length), h]
    rw [show o - (w * row.length + 6) + (w * row.length + 6 + (oldData row).length) = o + (oldData row).length by omega]
    simp only [goneRecord, List.append_assoc]
  · simp only [List.length_append, List.length_take, endInfos_length, List.length_cons, List.length_nil, beEnc_length']
    omega

theorem mark_pad (p : Bytes) (o : Nat) (m : Bool) (ho : o < p.length + 6) (h6 : 6 ≤ o) (h : deleteMarked p false o = m) :
    deleteMarked (pad p) false o = m := by
  rw [← h]
  unfold deleteMarked pad
  simp only [Bool.false_eq_true, if_false]
  rw [List.getD_eq_getElem?_getD, List.getD_eq_getElem?_getD, List.getElem?_append_left (by omega)]

set_option maxRecDepth 4000 in
theorem renamed_page : MarkedPage TablesLeaf [none] (pad renamedPage) renamedTables :=
  .leaf (padOld (by decide) (by decide))
    (padLinked (by decide) (by decide) (show link renamedPage 101 = 141 by decide) (by decide)
      (padLinked (by decide) (by decide) (show link renamedPage 141 = 208 by decide) (by decide) (padLast (by decide) (by decide) (by decide))))
    (.cons (padRecord (w := 1) (next := 208) (row := newTableRec) (by decide) (by decide) (by decide) (by decide))
      (.cons ⟨1, redundantAt_pad (goneRecord_at renamedPage 208 1 shopTableRec 116 (.inl rfl) (by decide) (by decide) (by decide)), .inl ⟨rfl, by decide⟩⟩ .nil))
    (.cons ⟨by decide, by decide, zeros 6, zeros 7, beEnc 4 2, beEnc 4 1, zeros 8, zeros 4, [], by decide⟩
      (.cons ⟨by decide, by decide, zeros 6, zeros 7, beEnc 4 2, beEnc 4 1, zeros 8, zeros 4, [], by decide⟩ .nil))
    (.cons (mark_pad _ _ _ (by decide) (by decide) (by decide)) (.cons (mark_pad _ _ _ (by decide) (by decide) (by decide)) .nil))

set_option maxRecDepth 4000 in
theorem dropped_page : MarkedPage TablesLeaf [none] (pad droppedPage) droppedTables :=
  .leaf (padOld (by decide) (by decide))
    (padLinked (by decide) (by decide) (show link droppedPage 101 = 141 by decide) (by decide)
      (padLinked (by decide) (by decide) (show link droppedPage 141 = 208 by decide) (by decide) (padLast (by decide) (by decide) (by decide))))
    (.cons (padRecord (w := 1) (next := 208) (row := shopTableRec) (by decide) (by decide) (by decide) (by decide))
      (.cons ⟨1, redundantAt_pad (goneRecord_at droppedPage 208 1 droppedRec 116 (.inl rfl) (by decide) (by decide) (by decide)), .inl ⟨rfl, by decide⟩⟩ .nil))
    (.cons ⟨by decide, by decide, zeros 6, zeros 7, beEnc 4 2, beEnc 4 1, zeros 8, zeros 4, [], by decide⟩
      (.cons ⟨by decide, by decide, zeros 6, zeros 7, beEnc 4 2, beEnc 4 1, zeros 8, zeros 4, [], by decide⟩ .nil))
    (.cons (mark_pad _ _ _ (by decide) (by decide) (by decide)) (.cons (mark_pad _ _ _ (by decide) (by decide) (by decide)) .nil))

theorem living_page {ρ : Type} {leaf : ρ → List OldCell → Prop} {key : List (Option Nat)} {p : Bytes} {os : List Nat} {rows : List (List OldCell)} {rs : List ρ}
    (hc : isCompact (pad p) = false) (hl : Linked (pad p) false (infimumAt false) os) (hr : All2 (OldRecordAt (pad p)) os rows) (hs : All2 leaf rs rows)
    (hm : ∀ o ∈ os, o < p.length + 6 ∧ 6 ≤ o ∧ deleteMarked p false o = false) : MarkedPage leaf key (pad p) (unmarked rs) := by
  refine .leaf (os := os) (rows := rows) hc hl hr ?_ ?_
  · clear hm hl hr
    induction hs with
    | nil => exact .nil
    | cons h _ ih => exact .cons h ih
  · have hlen : os.length = rs.length := by rw [all2_length hr, all2_length hs]
    clear hs hl hr
    induction os generalizing rs with
    | nil =>
      cases rs with
      | nil => exact .nil
      | cons _ _ => cases hlen
    | cons o os ih =>
      cases rs with
      | nil => cases hlen
      | cons r rs =>
        obtain ⟨h1, h2, h3⟩ := hm o (by simp)
        exact .cons (mark_pad p o false h1 h2 h3) (ih (fun o ho => hm o (by simp [ho])) (by simpa using hlen))

set_option maxRecDepth 4000 in
theorem renamed_system {q : Bytes} {mtrs : List (Bool × TableRow)}
    (hq : q = renamedPage ∧ mtrs = renamedTables ∨ q = droppedPage ∧ mtrs = droppedTables) :
    MarkedSystem (renamedFile q) mtrs (unmarked shopColumns) (unmarked (shopIndexes idKey)) (unmarked (shopFields idKey)) := by
  have hq' : q = renamedPage ∨ q = droppedPage := hq.imp And.left And.left
  refine ⟨pad shopHeader, by rw [renamed_images hq']; exact List.mem_map_of_mem (by simp [renamedPages]), shop_field shopHeader (4, 4) 7 (by decide) (by decide),
    ?_, ?_, ?_, ?_⟩
  · rw [shop_field shopHeader DICT_HDR_TABLES 8 (by decide) (by decide)]
    rcases hq with ⟨rfl, rfl⟩ | ⟨rfl, rfl⟩
    · exact ⟨pad renamedPage, [], [renamedTables], by rw [renamed_filter hq']; exact congrArg (List.map pad) (a₂ := [renamedPage]) (by decide),
        shop_field renamedPage (4, 4) 8 (by decide) (by decide), .cons renamed_page .nil, rfl⟩
    · exact ⟨pad droppedPage, [], [droppedTables], by rw [renamed_filter hq']; exact congrArg (List.map pad) (a₂ := [droppedPage]) (by decide),
        shop_field droppedPage (4, 4) 8 (by decide) (by decide), .cons dropped_page .nil, rfl⟩
  · rw [shop_field shopHeader DICT_HDR_COLUMNS 10 (by decide) (by decide)]
    refine ⟨pad shopColumnsRoot, [pad shopColumnsPage], [[], unmarked shopColumns],
      by rw [renamed_filter hq']; exact congrArg (List.map pad) (a₂ := [shopColumnsRoot, shopColumnsPage]) (by rcases hq' with rfl | rfl <;> decide),
      shop_field shopColumnsRoot (4, 4) 10 (by decide) (by decide), .cons ?_ (.cons ?_ .nil), rfl⟩
    · exact .node (padOld (by decide) (by decide))
        (padLinked (by decide) (by decide) (show link shopColumnsRoot 101 = 134 by decide) (by decide) (padLast (by decide) (by decide) (by decide)))
        (padRecord (w := 1) (next := 116) (row := shopNodeRec) (by decide) (by decide) (by decide) (by decide))
        ⟨_, _, show shopNodeRec = [cellOf (beEnc 8 20), cellOf (beEnc 4 0)] ++ [cellOf (beEnc 4 20)] from rfl, by decide,
          .cons (by rintro n ⟨⟩; decide) (.cons (by rintro n ⟨⟩; decide) .nil)⟩
    · exact living_page (os := [140, 207]) (rows := [shopIdRec, shopNameRec]) (padOld (by decide) (by decide))
        (padLinked (by decide) (by decide) (show link shopColumnsPage 101 = 140 by decide) (by decide)
          (padLinked (by decide) (by decide) (show link shopColumnsPage 140 = 207 by decide) (by decide)
            (padLast (by decide) (by decide) (by decide))))
        (.cons (padRecord (w := 1) (next := 207) (row := shopIdRec) (by decide) (by decide) (by decide) (by decide))
          (.cons (padRecord (w := 2) (next := 116) (row := shopNameRec) (by decide) (by decide) (by decide) (by decide)) .nil))
        (.cons ⟨by decide, by decide, by decide, by decide, by decide, zeros 6, zeros 7, zeros 4, by decide⟩
          (.cons ⟨by decide, by decide, by decide, by decide, by decide, zeros 6, zeros 7, zeros 4, by decide⟩ .nil)) (by decide)
  · rw [shop_field shopHeader DICT_HDR_INDEXES 11 (by decide) (by decide)]
    refine ⟨pad (shopIndexesPage idKey), [], [unmarked (shopIndexes idKey)],
      by rw [renamed_filter hq']; exact congrArg (List.map pad) (a₂ := [shopIndexesPage idKey]) (by rcases hq' with rfl | rfl <;> decide),
      shop_field (shopIndexesPage idKey) (4, 4) 11 (by decide) (by decide), .cons ?_ .nil, rfl⟩
    exact living_page (os := [140]) (rows := [shopIndexRec idKey]) (padOld (by decide) (by decide))
      (padLinked (by decide) (by decide) (show link (shopIndexesPage idKey) 101 = 140 by decide) (by decide) (padLast (by decide) (by decide) (by decide)))
      (.cons (padRecord (w := 1) (next := 116) (by decide) (by decide) (by decide) (by decide)) .nil)
      (.cons ⟨show 20 < 2 ^ 64 by decide, show 30 < 2 ^ 64 by decide, show 1 < 2 ^ 32 by decide, show 3 < 2 ^ 32 by decide, zeros 6, zeros 7,
        beEnc 4 5, beEnc 4 3, rfl, rfl, rfl, rfl, rfl⟩ .nil) (by decide)
  · rw [shop_field shopHeader DICT_HDR_FIELDS 12 (by decide) (by decide)]
    refine ⟨pad (shopFieldsPage idKey), [], [unmarked (shopFields idKey)],
      by rw [renamed_filter hq']; exact congrArg (List.map pad) (a₂ := [shopFieldsPage idKey]) (by rcases hq' with rfl | rfl <;> decide),
      shop_field (shopFieldsPage idKey) (4, 4) 12 (by decide) (by decide), .cons ?_ .nil, rfl⟩
    exact living_page (os := [136]) (rows := [shopFieldRec idKey]) (padOld (by decide) (by decide))
      (padLinked (by decide) (by decide) (show link (shopFieldsPage idKey) 101 = 136 by decide) (by decide) (padLast (by decide) (by decide) (by decide)))
      (.cons (padRecord (w := 1) (next := 116) (by decide) (by decide) (by decide) (by decide)) .nil)
      (.cons ⟨show 30 < 2 ^ 64 by decide, show 0 < 2 ^ 32 by decide, zeros 6, zeros 7, rfl, rfl, rfl⟩ .nil) (by decide)

theorem living_unmarked {ρ : Type} (l : List ρ) : living (unmarked l) = l := by
  unfold living unmarked
  rw [List.filter_eq_self.mpr (by
    intro x hx
    obtain ⟨r, _, rfl⟩ := List.mem_map.mp hx
    rfl), List.map_map]
  exact List.map_id _

theorem unmarked_gone {ρ : Type} {l : List ρ} {r : ρ} (h : (true, r) ∈ unmarked l) : False := by
  obtain ⟨x, _, hx⟩ := List.mem_map.mp h
  cases hx

theorem both_unmarked {ρ : Type} (l : List ρ) : both (unmarked l) = l := by
  unfold both unmarked
  rw [List.map_map]
  exact List.map_id _

set_option maxRecDepth 4000 in
theorem purged_dictionary : Dictionary purgedSys (living renamedTables) shopColumns (shopIndexes idKey) (shopFields idKey) where
  file := system_written _ _ _ _
    { tables := by decide
      columns := by decide
      indexes := by decide
      fields := by decide
      onTables := by decide
      onColumns := by decide
      onIndexes := by decide
      onFields := by decide }
  indexes := by decide
  ids := by decide
  names := ⟨by decide, by
    intro t ht
    cases List.mem_singleton.mp ht
    exact .inr ⟨b! "shop", b! "a", rfl, by decide, by decide, by decide⟩⟩

theorem renamed_keys : ∀ t ∈ living renamedTables, UsualKeys (shopIndexes idKey) (shopFields idKey) shopColumns t.id := by
  intro t ht
  cases List.mem_singleton.mp ht
  exact shop_arranged ⟨b! "shop/t", 20, 5⟩ (by decide)

/-- When the deleted row is purged, the rows of the table are printed. -/
theorem purged_prints (env : Env) (out : Out) : ∃ lines, fromDataFile env { renamedArgs with sysFile := .ok purgedSys } out = .ok () (out ++ lines) ∧
    All2 (Printed env.ff (b! "shop") (b! "a")) lines [[some (.int 4 1), some (.varchar (b! "ann"))], [some (.int 4 2), none]] :=
  C57_command_partial env { renamedArgs with sysFile := .ok purgedSys } _ _ _ _ _ _ ⟨b! "shop/a", 20, 5⟩ ⟨20, 30, b! "PRIMARY", 1, 3⟩ _ _ false
    (shopRows (b! "ann") false) rfl rfl purged_dictionary (by decide) rfl (shop_layout ⟨b! "shop/t", 20, 5⟩ (by decide))
    (shopData_file env (.inl rfl) false) (shop_op (b! "ann") _) renamed_keys
    (shop_handled ⟨b! "shop/t", 20, 5⟩ (by decide)) (shopData_marked (.inl rfl) false) (shopData_format (.inl rfl) false).1
    (shopData_format (.inl rfl) false).2
    (by
      intro row hrow
      rw [show columnsOf shopColumns 20 = [shopId, shopName] by decide]
      rcases List.mem_cons.mp hrow with rfl | hrow
      · exact .cons ⟨trivial, trivial⟩ (.cons ⟨trivial, ⟨by decide, by decide⟩⟩ .nil)
      · cases List.mem_singleton.mp hrow
        exact .cons ⟨trivial, trivial⟩ (.cons (by show shopName.mtype ≠ _; decide) .nil))
    (show 96 ∉ b! "shop" by decide) (show 96 ∉ b! "a" by decide) out

/-- Until then the command aborts. -/
theorem renamed_lost (env : Env) (out : Out) : fromDataFile env { renamedArgs with sysFile := .ok renamedSys } out = .panic out := by
  rw [C107_renamed env renamedArgs renamedSys _ _ _ _ _ ⟨b! "shop/a", 20, 5⟩ ⟨b! "shop/t", 20, 5⟩ (renamed_system (.inl ⟨rfl, rfl⟩)) (by decide) (by
    intro t ht
    rw [both_unmarked, both_unmarked, both_unmarked]
    have : t.id = 20 := by
      rcases List.mem_cons.mp ht with rfl | ht
      · rfl
      · cases List.mem_singleton.mp ht
        rfl
    rw [this]
    exact shop_arranged ⟨b! "shop/t", 20, 5⟩ (by decide)) (by decide) (by decide) (by decide) rfl]
  exact if_pos (file_record (shopData_file env (.inl rfl) false) (shopData_marked (.inl rfl) false) (by decide))

/-- The row of the dropped table shop.z is not purged: shop.t is printed as without it. -/
example (env : Env) (out : Out) : fromDataFile env { shopArgs (b! "ann") false with sysFile := .ok (renamedFile droppedPage) } out =
    fromDataFile env { shopArgs (b! "ann") false with sysFile := .ok (shopFile idKey) } out := by
  refine C107_dropped_partial env (shopArgs (b! "ann") false) _ _ droppedTables (unmarked shopColumns) (unmarked (shopIndexes idKey))
    (unmarked (shopFields idKey)) ⟨b! "shop/t", 20, 5⟩ (renamed_system (.inr ⟨rfl, rfl⟩)) ?_ ?_ (by decide) rfl (by decide) (by decide)
    ⟨by decide, ?_⟩ ?_ (fun c hc => (unmarked_gone hc).elim) (fun c hc => (unmarked_gone hc).elim) (fun c hc => (unmarked_gone hc).elim) out
  · rw [living_unmarked, living_unmarked, living_unmarked]
    exact shop_dictionary (.inl rfl)
  · rw [living_unmarked, living_unmarked, living_unmarked]
    exact shop_arranged
  · intro t ht
    rcases List.mem_cons.mp ht with rfl | ht
    · exact .inr ⟨b! "shop", b! "t", rfl, by decide, by decide, by decide⟩
    · cases List.mem_singleton.mp ht
      exact .inr ⟨b! "shop", b! "z", rfl, by decide, by decide, by decide⟩
  · intro t ht
    rw [both_unmarked, both_unmarked, both_unmarked]
    rcases List.mem_cons.mp ht with rfl | ht
    · exact shop_arranged ⟨b! "shop/t", 20, 5⟩ (by decide)
    · cases List.mem_singleton.mp ht
      exact .inl (by intro x hx hi; cases List.mem_singleton.mp hx; cases hi)

/-- The table shop.t has been renamed to shop.a. -/
theorem C107_false : ¬ C107_statement := by
  intro h
  obtain ⟨lines, h1, -⟩ := purged_prints testEnv []
  have := h testEnv renamedArgs renamedSys purgedSys _ _ _ _ ⟨b! "shop/a", 20, 5⟩ (renamed_system (.inl ⟨rfl, rfl⟩))
    (by rw [living_unmarked, living_unmarked, living_unmarked]; exact purged_dictionary)
    (by rw [living_unmarked, living_unmarked, living_unmarked]; exact renamed_keys) (by decide) rfl []
  rw [renamed_lost, h1] at this
  cases this

end Verif.Props
