import Verif.Props.DictLoad
import Verif.Proofs.Pad
import Verif.Proofs.Files
/-!
# C56: a system tablespace

A file with the dictionary of one table, `CREATE TABLE shop.t (id INT PRIMARY KEY, name VARCHAR(10))`.  The tree of SYS_COLUMNS has a root
above its leaf; the other trees consist of their roots.
-/

set_option linter.unusedSimpArgs false

namespace Verif.Props
open Verif Spec

def cellOf (b : Bytes) : OldCell := ⟨b, false⟩
def zeros (n : Nat) : Bytes := List.replicate n 0

/-- the first bytes of a REDUNDANT index page, up to the supremum record: page number, index id, level and first record -/
def indexTop (number id first : Nat) : Bytes :=
  zeros 4 ++ beEnc 4 number ++ zeros 58 ++ beEnc 8 id ++ zeros 25 ++ beEnc 2 first ++ zeros 24

def shopTables : List TableRow := [⟨b! "shop/t", 20, 5⟩]
def shopColumns : List ColumnRow := [⟨20, 0, b! "id", 6, 1283, 4⟩, ⟨20, 1, b! "name", 12, 2162703, 30⟩]
def shopIndexes (key : Bytes × Bytes) : List IndexRow := [⟨20, 30, key.1, 1, 3⟩]
def shopFields (key : Bytes × Bytes) : List FieldRow := [⟨30, 0, key.2⟩]

def shopTableRec : List OldCell :=
  [cellOf (b! "shop/t"), cellOf (zeros 6), cellOf (zeros 7), cellOf (beEnc 8 20), cellOf (beEnc 4 2), cellOf (beEnc 4 1), cellOf (zeros 8),
    cellOf (zeros 4), ⟨[], true⟩, cellOf (beEnc 4 5)]
def shopIdRec : List OldCell :=
  [cellOf (beEnc 8 20), cellOf (beEnc 4 0), cellOf (zeros 6), cellOf (zeros 7), cellOf (b! "id"), cellOf (beEnc 4 6), cellOf (beEnc 4 1283),
    cellOf (beEnc 4 4), cellOf (zeros 4)]
def shopNameRec : List OldCell :=
  [cellOf (beEnc 8 20), cellOf (beEnc 4 1), cellOf (zeros 6), cellOf (zeros 7), cellOf (b! "name"), cellOf (beEnc 4 12),
    cellOf (beEnc 4 2162703), cellOf (beEnc 4 30), cellOf (zeros 4)]
def shopNodeRec : List OldCell := [cellOf (beEnc 8 20), cellOf (beEnc 4 0), cellOf (beEnc 4 20)]
def shopIndexRec (key : Bytes × Bytes) : List OldCell :=
  [cellOf (beEnc 8 20), cellOf (beEnc 8 30), cellOf (zeros 6), cellOf (zeros 7), cellOf key.1, cellOf (beEnc 4 1), cellOf (beEnc 4 3),
    cellOf (beEnc 4 5), cellOf (beEnc 4 3)]
def shopFieldRec (key : Bytes × Bytes) : List OldCell :=
  [cellOf (beEnc 8 30), cellOf (beEnc 4 0), cellOf (zeros 6), cellOf (zeros 7), cellOf key.2]

/-- page 7: the roots are the pages 8, 10, 11 and 12 -/
def shopHeader : Bytes := zeros 4 ++ beEnc 4 7 ++ zeros 62 ++ beEnc 4 8 ++ zeros 4 ++ beEnc 4 10 ++ beEnc 4 11 ++ beEnc 4 12
def shopTablesPage : Bytes := indexTop 8 1 141 ++ oldRecord 1 shopTableRec 116 ++ oldData shopTableRec
def shopColumnsRoot : Bytes := indexTop 10 2 134 ++ oldRecord 1 shopNodeRec 116 ++ oldData shopNodeRec
def shopColumnsPage : Bytes :=
  indexTop 20 2 140 ++ oldRecord 1 shopIdRec 207 ++ oldData shopIdRec ++ oldRecord 2 shopNameRec 116 ++ oldData shopNameRec
def shopIndexesPage (key : Bytes × Bytes) : Bytes := indexTop 11 3 140 ++ oldRecord 1 (shopIndexRec key) 116 ++ oldData (shopIndexRec key)
def shopFieldsPage (key : Bytes × Bytes) : Bytes := indexTop 12 4 136 ++ oldRecord 1 (shopFieldRec key) 116 ++ oldData (shopFieldRec key)

/-- the pages of the file, without the zeros at their ends, for a clustered index of this name on this column -/
def shopPages (key : Bytes × Bytes) : List Bytes :=
  [shopHeader, shopTablesPage, shopColumnsRoot, shopIndexesPage key, shopFieldsPage key, shopColumnsPage]

def idKey : Bytes × Bytes := (b! "PRIMARY", b! "id")
def nameKey : Bytes × Bytes := (b! "PRIMARY", b! "name")
def uniqueKey : Bytes × Bytes := (b! "id_uniq", b! "id")

/-- the indexes considered -/
def ShopKey (key : Bytes × Bytes) : Prop := key = idKey ∨ key = nameKey ∨ key = uniqueKey

def shopFile (key : Bytes × Bytes) : Bytes := ((shopPages key).map pad).flatten

set_option maxRecDepth 4000 in
theorem shop_length {key : Bytes × Bytes} (hk : ShopKey key) : ∀ p ∈ shopPages key, 90 ≤ p.length ∧ p.length ≤ 300 := by
  rcases hk with rfl | rfl | rfl <;> decide

theorem shop_pages {key : Bytes × Bytes} (hk : ShopKey key) : filePages (shopFile key) = (shopPages key).map pad := by
  refine images_flatten _ ?_ ?_
  · intro d hd
    obtain ⟨p, hp, rfl⟩ := List.mem_map.mp hd
    exact pad_length p (by have := shop_length hk p hp; omega)
  · rw [List.map_map, List.map_congr_left (f := pageNumber ∘ pad) (g := pageNumber) fun p hp =>
      numAt_pad p 4 4 (by have := shop_length hk p hp; omega)]
    rcases hk with rfl | rfl | rfl <;> decide

theorem shop_filter {key : Bytes × Bytes} (hk : ShopKey key) (id : Nat) : (filePages (shopFile key)).filter (fun d => field d PAGE_INDEX_ID == id) =
    ((shopPages key).filter fun d => field d PAGE_INDEX_ID == id).map pad := by
  rw [shop_pages hk, List.filter_map]
  refine congrArg (List.map pad) (List.filter_congr fun p hp => ?_)
  rw [Function.comp_apply, show field (pad p) PAGE_INDEX_ID = field p PAGE_INDEX_ID from
    numAt_pad p 66 8 (by have := shop_length hk p hp; omega)]

/-- the records of a page -/
theorem padLinked {p : Bytes} {o o' : Nat} {os : List Nat} (ho : 2 ≤ o) (hp : o ≤ p.length) (h : link p o = o')
    (hu : UserAt false o') (hl : Linked (pad p) false o' os) : Linked (pad p) false o (o' :: os) := by
  have : follow (pad p) false o = o' := by
    unfold follow
    rw [if_neg (by decide), link_pad p o hp ho, h]
  rw [← this] at hu hl ⊢
  exact .next hu hl

theorem padLast {p : Bytes} {o : Nat} (ho : 2 ≤ o) (hp : o ≤ p.length) (h : link p o = 116) : Linked (pad p) false o [] := by
  refine .last ?_
  unfold follow
  rw [if_neg (by decide), link_pad p o hp ho, h]
  rfl

theorem padOld {p : Bytes} (h : isCompact p = false) (hp : 44 ≤ p.length) : isCompact (pad p) = false := by
  unfold isCompact at h ⊢
  rw [numAt_pad p 42 2 (by omega)]
  exact h

/-- a record of a page -/
theorem padRecord {p : Bytes} {o w next : Nat} {row : List OldCell} (hw : w = 1 ∧ (oldData row).length ≤ 127 ∨ w = 2)
    (ho : w * row.length + 6 ≤ o) (hd : o + (oldData row).length ≤ p.length)
    (h : sub p (o - (w * row.length + 6)) (w * row.length + 6 + (oldData row).length) = oldRecord w row next ++ oldData row) :
    OldRecordAt (pad p) o row :=
  ⟨w, redundantAt_pad (redundantAt_of_sub p o w row next (hw.imp (·.1) id) ho hd h), hw⟩

set_option maxRecDepth 4000 in
theorem shop_tablesPage : TreePage TablesLeaf [none] (pad shopTablesPage) shopTables :=
  .leaf (padOld (by decide) (by decide))
    (padLinked (by decide) (by decide) (show link shopTablesPage 101 = 141 by decide) (by decide) (padLast (by decide) (by decide) (by decide)))
    (.cons (padRecord (w := 1) (next := 116) (row := shopTableRec) (by decide) (by decide) (by decide) (by decide)) .nil)
    (.cons ⟨by decide, by decide, zeros 6, zeros 7, beEnc 4 2, beEnc 4 1, zeros 8, zeros 4, [], by decide⟩ .nil)

set_option maxRecDepth 4000 in
theorem shop_columnsRoot : TreePage ColumnsLeaf [some 8, some 4] (pad shopColumnsRoot) [] :=
  .node (padOld (by decide) (by decide))
    (padLinked (by decide) (by decide) (show link shopColumnsRoot 101 = 134 by decide) (by decide) (padLast (by decide) (by decide) (by decide)))
    (padRecord (w := 1) (next := 116) (row := shopNodeRec) (by decide) (by decide) (by decide) (by decide))
    ⟨_, _, show shopNodeRec = [cellOf (beEnc 8 20), cellOf (beEnc 4 0)] ++ [cellOf (beEnc 4 20)] from rfl, by decide,
      .cons (by rintro n ⟨⟩; decide) (.cons (by rintro n ⟨⟩; decide) .nil)⟩

set_option maxRecDepth 4000 in
theorem shop_columnsPage : TreePage ColumnsLeaf [some 8, some 4] (pad shopColumnsPage) shopColumns :=
  .leaf (padOld (by decide) (by decide))
    (padLinked (by decide) (by decide) (show link shopColumnsPage 101 = 140 by decide) (by decide)
      (padLinked (by decide) (by decide) (show link shopColumnsPage 140 = 207 by decide) (by decide)
        (padLast (by decide) (by decide) (by decide))))
    (.cons (padRecord (w := 1) (next := 207) (row := shopIdRec) (by decide) (by decide) (by decide) (by decide))
      (.cons (padRecord (w := 2) (next := 116) (row := shopNameRec) (by decide) (by decide) (by decide) (by decide)) .nil))
    (.cons ⟨by decide, by decide, by decide, by decide, by decide, zeros 6, zeros 7, zeros 4, by decide⟩
      (.cons ⟨by decide, by decide, by decide, by decide, by decide, zeros 6, zeros 7, zeros 4, by decide⟩ .nil))

set_option maxRecDepth 4000 in
theorem shop_indexesPage {key : Bytes × Bytes} (hk : ShopKey key) :
    TreePage IndexesLeaf [some 8, some 8] (pad (shopIndexesPage key)) (shopIndexes key) := by
  refine .leaf (os := [140]) (rows := [shopIndexRec key]) (padOld ?_ ?_)
    (padLinked (by decide) ?_ (show link (shopIndexesPage key) 101 = 140 from ?_) (by decide) (padLast (by decide) ?_ ?_))
    (.cons (padRecord (w := 1) (next := 116) ?_ ?_ ?_ ?_) .nil)
    (.cons ⟨show 20 < 2 ^ 64 by decide, show 30 < 2 ^ 64 by decide, show 1 < 2 ^ 32 by decide, show 3 < 2 ^ 32 by decide, zeros 6, zeros 7,
      beEnc 4 5, beEnc 4 3, rfl, rfl, rfl, rfl, rfl⟩ .nil) <;>
  rcases hk with rfl | rfl | rfl <;> decide

set_option maxRecDepth 4000 in
theorem shop_fieldsPage {key : Bytes × Bytes} (hk : ShopKey key) : TreePage FieldsLeaf [some 8, some 4] (pad (shopFieldsPage key)) (shopFields key) := by
  refine .leaf (os := [136]) (rows := [shopFieldRec key]) (padOld ?_ ?_)
    (padLinked (by decide) ?_ (show link (shopFieldsPage key) 101 = 136 from ?_) (by decide) (padLast (by decide) ?_ ?_))
    (.cons (padRecord (w := 1) (next := 116) ?_ ?_ ?_ ?_) .nil)
    (.cons ⟨show 30 < 2 ^ 64 by decide, show 0 < 2 ^ 32 by decide, zeros 6, zeros 7, rfl, rfl, rfl⟩ .nil) <;>
  rcases hk with rfl | rfl | rfl <;> decide

theorem shop_field (p : Bytes) (f : Nat × Nat) (n : Nat) (h : f.1 + f.2 ≤ p.length) (hn : field p f = n) : field (pad p) f = n := by
  rw [← hn]
  exact numAt_pad p f.1 f.2 h

set_option maxRecDepth 4000 in
theorem shop_system {key : Bytes × Bytes} (hk : ShopKey key) : SystemFile (shopFile key) shopTables shopColumns (shopIndexes key) (shopFields key) := by
  refine ⟨pad shopHeader, by rw [shop_pages hk]; exact List.mem_map_of_mem (by simp [shopPages]), shop_field shopHeader (4, 4) 7 (by decide) (by decide),
    ?_, ?_, ?_, ?_⟩
  · rw [shop_field shopHeader DICT_HDR_TABLES 8 (by decide) (by decide)]
    exact ⟨pad shopTablesPage, [], [shopTables], by rw [shop_filter hk]; exact congrArg (List.map pad) (a₂ := [shopTablesPage]) (by rcases hk with rfl | rfl | rfl <;> decide),
      shop_field shopTablesPage (4, 4) 8 (by decide) (by decide), .cons shop_tablesPage .nil, rfl⟩
  · rw [shop_field shopHeader DICT_HDR_COLUMNS 10 (by decide) (by decide)]
    exact ⟨pad shopColumnsRoot, [pad shopColumnsPage], [[], shopColumns],
      by rw [shop_filter hk]; exact congrArg (List.map pad) (a₂ := [shopColumnsRoot, shopColumnsPage]) (by rcases hk with rfl | rfl | rfl <;> decide),
      shop_field shopColumnsRoot (4, 4) 10 (by decide) (by decide), .cons shop_columnsRoot (.cons shop_columnsPage .nil), rfl⟩
  · rw [shop_field shopHeader DICT_HDR_INDEXES 11 (by decide) (by decide)]
    exact ⟨pad (shopIndexesPage key), [], [shopIndexes key], by rw [shop_filter hk]; exact congrArg (List.map pad) (a₂ := [shopIndexesPage key]) (by rcases hk with rfl | rfl | rfl <;> decide),
      shop_field (shopIndexesPage key) (4, 4) 11 (by rcases hk with rfl | rfl | rfl <;> decide) (by rcases hk with rfl | rfl | rfl <;> decide), .cons (shop_indexesPage hk) .nil, rfl⟩
  · rw [shop_field shopHeader DICT_HDR_FIELDS 12 (by decide) (by decide)]
    exact ⟨pad (shopFieldsPage key), [], [shopFields key], by rw [shop_filter hk]; exact congrArg (List.map pad) (a₂ := [shopFieldsPage key]) (by rcases hk with rfl | rfl | rfl <;> decide),
      shop_field (shopFieldsPage key) (4, 4) 12 (by rcases hk with rfl | rfl | rfl <;> decide) (by rcases hk with rfl | rfl | rfl <;> decide), .cons (shop_fieldsPage hk) .nil, rfl⟩

def shopId : Column := { name := b! "id", ftype := 6, mtype := 3, len := 4, isNull := false, tableId := 20 }
def shopName : Column := { name := b! "name", ftype := 12, mtype := 15, pos := 1, len := 30, isNull := true, tableId := 20 }

/-- the stored columns of the table with the primary key `id` -/
def shopLayout (id : Nat) : List Column := [shopId, trxColumn id 1, rollColumn id 2, shopName]

theorem shop_layout : ∀ t ∈ shopTables, Layout (shopIndexes idKey) (shopFields idKey) t.id (columnsOf shopColumns t.id) (shopLayout t.id) := by
  intro t ht
  cases List.mem_singleton.mp ht
  exact .key (r := ⟨20, 30, b! "PRIMARY", 1, 3⟩) (by decide) (by decide) (by decide) (by decide)

theorem shop_handled : ∀ t ∈ shopTables, Handled (shopIndexes idKey) (shopFields idKey) shopColumns t.id := by
  intro t ht
  cases List.mem_singleton.mp ht
  exact ⟨⟨20, 30, b! "PRIMARY", 1, 3⟩, by decide, by decide, .inr ⟨by decide, by decide, shopId, [shopName], by decide, by decide⟩⟩

theorem shop_arranged : ∀ t ∈ shopTables, UsualKeys (shopIndexes idKey) (shopFields idKey) shopColumns t.id := by
  intro t ht
  cases List.mem_singleton.mp ht
  exact .inr ⟨⟨20, 30, b! "PRIMARY", 1, 3⟩, by decide, .inr ⟨by decide, by decide, by decide, by decide⟩⟩

/-- the tables of the file -/
theorem shop_table {env : Env} {key : Bytes × Bytes} {lay : Nat → List Column}
    (h : Loads env (shopFile key) shopTables shopColumns (shopIndexes key) (shopFields key) lay) (out : Out) :
    ∃ tables dict ixs, parseDictPage env (.ok (shopFile key)) { out := out } = .ok none { tables, dict, out } ∧ tables.WF ∧
      tables.get? 20 = some { db := b! "shop", name := b! "t", spaceId := 5, columns := lay 20, nullCount := 1, indexes := ixs } := by
  obtain ⟨tables, dict, h1, h2, h3⟩ := h out
  have := h3 20
  cases ht : tables.get? 20 with
  | none => rw [ht] at this; exact absurd rfl (this ⟨b! "shop/t", 20, 5⟩ (by decide))
  | some t =>
    rw [ht] at this
    obtain ⟨r, ixs, e1, e2, -⟩ := this
    cases (show lastWith (·.id == 20) shopTables = some ⟨b! "shop/t", 20, 5⟩ by decide).symm.trans e1
    exact ⟨tables, dict, ixs, h1, h2, by rw [ht, e2]; rfl⟩

/-- The hypotheses of `C56_dictionary_partial` hold for the file. -/
theorem shop_loads (env : Env) : Loads env (shopFile idKey) shopTables shopColumns (shopIndexes idKey) (shopFields idKey) shopLayout := by
  obtain ⟨lay, h1, h2⟩ := C56_dictionary_partial env _ _ _ _ _ (shop_system (.inl rfl)) (by decide)
    shop_arranged
  intro out
  obtain ⟨tables, dict, h3, h4, h5⟩ := h1 out
  refine ⟨tables, dict, h3, h4, fun id => ?_⟩
  have := h5 id
  cases hg : tables.get? id with
  | none => rw [hg] at this; exact this
  | some t =>
    rw [hg] at this
    obtain ⟨r, ixs, e1, e2, e3⟩ := this
    obtain ⟨hid, hmem⟩ := lastWith_some e1
    have hid : r.id = id := by simpa using hid
    have := h2 r hmem (shop_handled r hmem) _ (shop_layout r hmem)
    rw [hid] at this
    exact ⟨r, ixs, e1, by rw [e2, this], e3⟩

example (env : Env) : ∃ tables dict ixs, parseDictPage env (.ok (shopFile idKey)) {} = .ok none { tables, dict, out := [] } ∧ tables.WF ∧
    tables.get? 20 = some { db := b! "shop", name := b! "t", spaceId := 5, columns := shopLayout 20, nullCount := 1, indexes := ixs } :=
  shop_table (shop_loads env) []

/-- With the primary key `name` the column `id` is lost. -/
theorem shop_lost (env : Env) : Loads env (shopFile nameKey) shopTables shopColumns (shopIndexes nameKey) (shopFields nameKey)
    fun id => [shopName, trxColumn id 1, rollColumn id 2, shopName] := by
  refine C56_loads env _ _ _ _ _ (shop_system (.inr (.inl rfl))) (by decide) _ fun t ht => ?_
  cases List.mem_singleton.mp ht
  exact .primary (r := ⟨20, 30, b! "PRIMARY", 1, 3⟩) (moved := [shopName, shopName]) (by decide) (by decide) (by decide) (by decide)
    (.single (cols := [shopId, shopName]) (f := ⟨0, b! "name"⟩) (p := 1) (by decide) rfl rfl)

/-- C56 is false of the code: the primary key `name` is the second column of the table, and `id` is not loaded. -/
theorem C56_false : ¬ C56_statement := by
  intro h
  have h1 := h testEnv (shopFile nameKey) shopTables shopColumns (shopIndexes nameKey) (shopFields nameKey) (shop_system (.inr (.inl rfl))) (by decide)
    (fun id => [shopName, trxColumn id 1, rollColumn id 2, shopId]) (by
      intro t ht
      cases List.mem_singleton.mp ht
      exact .key (r := ⟨20, 30, b! "PRIMARY", 1, 3⟩) (by decide) (by decide) (by decide) (by decide))
  obtain ⟨t1, d1, i1, a1, -, c1⟩ := shop_table h1 []
  obtain ⟨t2, d2, i2, a2, -, c2⟩ := shop_table (shop_lost testEnv) []
  rw [a1] at a2
  injection a2 with _ a2
  injection a2 with a2
  rw [a2, c2] at c1
  injection c1 with c1
  have c1 := congrArg Table.columns c1
  dsimp only at c1
  exact absurd c1 (by decide)

/-- The hypotheses of `C56_unique_key` hold for the table with the clustered index `id_uniq`, whose records have four columns. -/
example (env : Env) : ∃ tables dict tb, parseDictPage env (.ok (shopFile uniqueKey)) {} = .ok none { tables, dict, out := [] } ∧
    tables.get? 20 = some tb ∧ tb.columns = [shopId, shopName] ∧
    Layout (shopIndexes uniqueKey) (shopFields uniqueKey) 20 [shopId, shopName] [shopId, trxColumn 20 1, rollColumn 20 2, shopName] := by
  obtain ⟨tables, dict, tb, h1, h2, h3, -⟩ := C56_unique_key env _ _ _ _ _ (shop_system (.inr (.inr rfl))) (by decide)
    (by intro t ht; exact .inl (by cases List.mem_singleton.mp ht; decide)) ⟨b! "shop/t", 20, 5⟩ (by decide) (by decide) []
  exact ⟨tables, dict, tb, h1, h2, h3, .key (r := ⟨20, 30, b! "id_uniq", 1, 3⟩) (by decide) (by decide) (by decide) (by decide)⟩

end Verif.Props
