import Verif.Props.DataCut
/-!
# C71: pages that were not written completely
-/

namespace Verif.Props
open Verif Spec

/-- `buf_page_is_corrupted` of buf0buf.cc: the low half of the LSN in the header differs from the copy in the trailer. -/
def Torn (d : Bytes) : Prop := numAt d 20 4 ≠ numAt d 16380 4

instance (d : Bytes) : Decidable (Torn d) := inferInstanceAs (Decidable (_ ≠ _))

/-- the pages that were written completely -/
def wholePages (ds : List Bytes) : List Bytes := ds.filter fun d => decide (¬ Torn d)

/-- **C71**, as stated: exactly the rows of the pages that were written completely are printed. -/
def C71_statement : Prop :=
  ∀ (env : Env) (a : FromData) (sys : Bytes) (ds : List Bytes) (trs : List TableRow) (crs : List ColumnRow)
    (irs : List IndexRow) (frs : List FieldRow) (t : TableRow) (r : IndexRow) (l : List Column) (defs : List ColDef) (deleted : Bool)
    (rows : List (List (Option TVal))), (∀ d ∈ ds, d.length = 16384) → (ds.map pageNumber).Nodup →
    PrintableFile env a sys (wholePages ds).flatten trs crs irs frs t r l defs deleted rows →
    TableFile env (wholePages ds).flatten r.id (columnsOf crs t.id) l defs deleted rows → a.tableFile = .ok ds.flatten →
    ∀ out, ∃ lines, fromDataFile env a out = .ok () (out ++ lines) ∧ All2 (Printed env.ff a.db a.table) lines rows

/-- Two pages with the same number, type and contents.  Checksums, neighbours, LSNs, space id and trailer may differ. -/
structure SamePage (d d' : Bytes) : Prop where
  length : d.length = 16384
  length' : d'.length = 16384
  number : pageNumber d = pageNumber d'
  type : field d FIL_PAGE_TYPE = field d' FIL_PAGE_TYPE
  contents : (d.take (16384 - 8)).drop 38 = (d'.take (16384 - 8)).drop 38

theorem SamePage.slice {d d' : Bytes} (h : SamePage d d') {x w : Nat} (h1 : 38 ≤ x) (h2 : x + w ≤ 16384 - 8) : (d.drop x).take w = (d'.drop x).take w := by
  have key : ∀ p : Bytes, (p.drop x).take w = (((p.take (16384 - 8)).drop 38).drop (x - 38)).take w := by
    intro p
    rw [List.drop_drop, show 38 + (x - 38) = x by omega, List.drop_take, List.take_take]
    congr 1
    omega
  rw [key d, key d', h.contents]

theorem SamePage.num {d d' : Bytes} (h : SamePage d d') {x w : Nat} (h1 : 38 ≤ x) (h2 : x + w ≤ 16384 - 8) : numAt d x w = numAt d' x w := by
  unfold numAt
  rw [h.slice h1 h2]

theorem SamePage.isCompact {d d' : Bytes} (h : SamePage d d') : isCompact d' = isCompact d := by
  unfold Spec.isCompact
  rw [h.num (x := 42) (w := 2) (by omega) (by omega)]

theorem SamePage.link {d d' : Bytes} (h : SamePage d d') {o : Nat} (h1 : 40 ≤ o) (h2 : o ≤ 16384 - 8) : link d' o = link d o :=
  (h.num (by omega) (by omega)).symm

theorem SamePage.follow {d d' : Bytes} (h : SamePage d d') (c : Bool) {o : Nat} (h1 : 40 ≤ o) (h2 : o ≤ 16384 - 8) : follow d' c o = follow d c o := by
  unfold Spec.follow
  rw [h.link h1 h2]

/-- a stretch of a page that lies in what both pages share -/
theorem SamePage.part {d d' pre mid post : Bytes} (h : SamePage d d') (hd : d = pre ++ mid ++ post) (h1 : 38 ≤ pre.length)
    (h2 : pre.length + mid.length ≤ 16384 - 8) : d' = d'.take pre.length ++ mid ++ d'.drop (pre.length + mid.length) ∧ (d'.take pre.length).length = pre.length := by
  have hl := h.length'
  have e : mid = (d'.drop pre.length).take mid.length := by
    rw [← h.slice h1 h2, hd, List.append_assoc, List.drop_left' rfl, List.take_left' rfl]
  refine ⟨?_, by rw [List.length_take]; omega⟩
  conv_lhs => rw [← List.take_append_drop pre.length d', ← List.take_append_drop mid.length (d'.drop pre.length), ← e, List.drop_drop, ← List.append_assoc]

theorem SamePage.compactAt {d d' : Bytes} (h : SamePage d d') {o : Nat} {row : Row} (hr : CompactAt d o row)
    (h1 : 38 + (compactPrefix row []).length + 5 ≤ o) (h2 : o + (rowData row).length ≤ 16384 - 8) : CompactAt d' o row := by
  obtain ⟨pre, hdr, post, _, h5, hd, ho⟩ := hr
  have hcp : (compactPrefix row hdr).length = (compactPrefix row []).length + 5 := by
    simp only [compactPrefix, List.length_append, h5, List.length_nil]
    try omega
  rw [List.length_append, hcp] at ho
  obtain ⟨e, hl⟩ := h.part (pre := pre) (mid := compactPrefix row hdr ++ rowData row) (post := post) (by rw [hd]; simp only [List.append_assoc]) (by omega)
    (by rw [List.length_append, hcp]; omega)
  refine ⟨d'.take pre.length, hdr, d'.drop (pre.length + (compactPrefix row hdr ++ rowData row).length), ?_, h5, ?_, ?_⟩
  · intro e0
    rw [e0] at hl
    simp only [List.length_nil] at hl
    omega
  · conv_lhs => rw [e]
    simp only [List.append_assoc]
  · rw [List.length_append, hl, hcp]
    omega

theorem SamePage.redundantAt {d d' : Bytes} (h : SamePage d d') {o w : Nat} {row : List OldCell} (hr : RedundantAt d o w row)
    (h1 : 38 + (endInfos w 0 row).length + 6 ≤ o) (h2 : o + (oldData row).length ≤ 16384 - 8) : RedundantAt d' o w row := by
  obtain ⟨pre, h3, flag, hh, post, l3, l2, hf, hd, ho⟩ := hr
  simp only [List.length_append, l3, l2, List.length_singleton] at ho
  obtain ⟨e, hl⟩ := h.part (pre := pre) (mid := endInfos w 0 row ++ h3 ++ [flag] ++ hh ++ oldData row) (post := post)
    (by rw [hd]; simp only [List.append_assoc]) (by omega) (by simp only [List.length_append, l3, l2, List.length_singleton]; omega)
  refine ⟨d'.take pre.length, h3, flag, hh, d'.drop (pre.length + (endInfos w 0 row ++ h3 ++ [flag] ++ hh ++ oldData row).length), l3, l2, hf, ?_, ?_⟩
  · conv_lhs => rw [e]
    simp only [List.append_assoc]
  · simp only [List.length_append, hl, l3, l2, List.length_singleton]
    omega

theorem SamePage.linked {d d' : Bytes} (h : SamePage d d') {c : Bool} {o : Nat} {os : List Nat} (hk : Linked d c o os) (h1 : 40 ≤ o) (h2 : o ≤ 16384 - 8) :
    Linked d' c o os := by
  induction hk with
  | last hs => exact .last (by rw [h.follow c h1 h2]; exact hs)
  | @next o os hu _ ih =>
    have hb := userAt_bounds hu
    have e := h.follow c h1 h2
    rw [← e] at hu hb ih ⊢
    exact .next hu (ih (by omega) (by omega))

theorem SamePage.freeList {d d' : Bytes} (h : SamePage d d') {c : Bool} {o : Nat} {os : List Nat} (hk : FreeList d c o os) : FreeList d' c o os := by
  induction hk with
  | @last o hu h0 =>
    have hb := userAt_bounds hu
    exact .last hu (by rw [h.link (by omega) (by omega)]; exact h0)
  | @next o os hu h0 _ ih =>
    have hb := userAt_bounds hu
    refine .next hu (by rw [h.link (by omega) (by omega)]; exact h0) ?_
    rw [h.follow c (by omega) (by omega)]
    exact ih

theorem SamePage.records {d d' : Bytes} (h : SamePage d d') {deleted : Bool} {os : List Nat} (hr : Records deleted d os) : Records deleted d' os := by
  unfold Records at *
  rw [h.isCompact]
  cases deleted with
  | true =>
    rw [if_pos rfl] at hr ⊢
    rw [show field d' PAGE_FREE = field d PAGE_FREE from (h.num (show 38 ≤ 44 by omega) (show 44 + 2 ≤ 16384 - 8 by omega)).symm]
    exact h.freeList hr
  | false =>
    rw [if_neg (by decide)] at hr ⊢
    have hb : infimumAt (Spec.isCompact d) = 99 ∨ infimumAt (Spec.isCompact d) = 101 := by cases Spec.isCompact d <;> simp [infimumAt]
    exact h.linked hr (by omega) (by omega)

/-- The page holds these records (as `PageHolds` says), and they begin behind the page header. -/
inductive HoldsInside (defs : List ColDef) (deleted : Bool) (d : Bytes) : List (List Cell) → Prop where
  | compact {os rows} : Spec.isCompact d = true → Records deleted d os →
      All2 (fun o cells => (CompactRow d defs o cells ∧ o + (rowData (rowOf defs cells)).length ≤ 16384 - 8) ∧
        38 + (compactPrefix (rowOf defs cells) []).length + 5 ≤ o) os rows → HoldsInside defs deleted d rows
  | redundant {os rows} : Spec.isCompact d = false → Records deleted d os →
      All2 (fun o r => ((OldRow d defs o r ∧ o + (oldData r.2).length ≤ 16384 - 8) ∧
        All2 (fun k x => x.null = true → k.nullable = true) defs r.2) ∧ 38 + (endInfos r.1 0 r.2).length + 6 ≤ o) os rows →
      HoldsInside defs deleted d (rows.map fun r => r.2.map OldCell.cell)

/-- **C71, a page:** what a page holds does not depend on its checksums, LSNs and trailer. -/
theorem C71_page {defs : List ColDef} {deleted : Bool} {d d' : Bytes} {cellss : List (List Cell)} (h : SamePage d d')
    (hd : HoldsInside defs deleted d cellss) : PageHolds defs deleted d' cellss := by
  cases hd with
  | compact hc hr hrows =>
    exact .compact (h.isCompact.trans hc) (h.records hr) (all2_imp (fun o cells x => ⟨⟨x.1.1.1, h.compactAt x.1.1.2 x.2 x.1.2⟩, x.1.2⟩) hrows)
  | redundant hc hr hrows =>
    exact .redundant (h.isCompact.trans hc) (h.records hr)
      (all2_imp (fun o r x => ⟨⟨⟨x.1.1.1.1, h.redundantAt x.1.1.1.2.1 x.2 x.1.1.2, x.1.1.1.2.2⟩, x.1.1.2⟩, x.1.2⟩) hrows)

theorem SamePage.field {d d' : Bytes} (h : SamePage d d') (f : Nat × Nat) (h1 : 38 ≤ f.1) (h2 : f.1 + f.2 ≤ 16384 - 8) : field d' f = field d f :=
  (h.num h1 h2).symm

theorem SamePage.isLeaf {d d' : Bytes} (h : SamePage d d') (cid : Nat) (deleted : Bool) : isLeaf cid deleted d' = isLeaf cid deleted d := by
  unfold Props.isLeaf
  rw [← h.type, h.field _ (show 38 ≤ 64 by omega) (show 64 + 2 ≤ 16384 - 8 by omega), h.field _ (show 38 ≤ 66 by omega) (show 66 + 8 ≤ 16384 - 8 by omega),
    h.field _ (show 38 ≤ 44 by omega) (show 44 + 2 ≤ 16384 - 8 by omega)]

theorem same_leaves {ds ds' : List Bytes} (h : All2 SamePage ds ds') (cid : Nat) (deleted : Bool) :
    All2 SamePage (ds.filter (isLeaf cid deleted)) (ds'.filter (isLeaf cid deleted)) := by
  induction h with
  | nil => exact .nil
  | @cons d d' ds ds' h _ ih =>
    rw [List.filter_cons, List.filter_cons, h.isLeaf]
    split
    · exact .cons h ih
    · exact ih

theorem same_facts {ds ds' : List Bytes} (h : All2 SamePage ds ds') : (∀ p ∈ ds, p.length = 16384) ∧ (∀ p ∈ ds', p.length = 16384) ∧
    ds'.map pageNumber = ds.map pageNumber ∧ ∀ p' ∈ ds', ∃ p ∈ ds, SamePage p p' := by
  induction h with
  | nil => exact ⟨by simp, by simp, rfl, by simp⟩
  | @cons d d' ds ds' h _ ih =>
    obtain ⟨h1, h2, h3, h4⟩ := ih
    refine ⟨?_, ?_, by rw [List.map_cons, List.map_cons, h3, h.number], ?_⟩
    · intro p hp
      rcases List.mem_cons.mp hp with rfl | hp
      · exact h.length
      · exact h1 p hp
    · intro p hp
      rcases List.mem_cons.mp hp with rfl | hp
      · exact h.length'
      · exact h2 p hp
    · intro p hp
      rcases List.mem_cons.mp hp with rfl | hp
      · exact ⟨d, by simp, h⟩
      · obtain ⟨q, hq, hs⟩ := h4 p hp
        exact ⟨q, List.mem_cons_of_mem _ hq, hs⟩

theorem all2_same {α : Type} {Q : Bytes → α → Prop} {ds ds' : List Bytes} {rss : List α} (h : All2 SamePage ds ds') (hr : All2 Q ds rss)
    {Q' : Bytes → α → Prop} (himp : ∀ d d' a, SamePage d d' → Q d a → Q' d' a) : All2 Q' ds' rss := by
  induction h generalizing rss with
  | nil => cases hr; exact .nil
  | cons h _ ih =>
    cases hr with
    | cons h1 h2 => exact .cons (himp _ _ _ h h1) (ih h2)

theorem same_pages {ds ds' : List Bytes} (h : All2 SamePage ds ds') (hn : (ds.map pageNumber).Nodup) :
    filePages ds.flatten = ds ∧ filePages ds'.flatten = ds' ∧
      ∀ cid deleted, All2 SamePage (leafPages ds.flatten cid deleted) (leafPages ds'.flatten cid deleted) := by
  obtain ⟨h1, h2, h3, _⟩ := same_facts h
  refine ⟨images_flatten _ h1 hn, images_flatten _ h2 (by rw [h3]; exact hn), fun cid deleted => ?_⟩
  rw [leafPages_flatten _ h1 hn, leafPages_flatten _ h2 (by rw [h3]; exact hn)]
  exact same_leaves h cid deleted

/-- what a file with the given pages must satisfy, with all records behind the page headers -/
def PagesInside (content : Bytes) (cid : Nat) (cols l : List Column) (defs : List ColDef) (deleted : Bool) (rows : List (List (Option TVal))) : Prop :=
  ∃ rss, rows = rss.flatten ∧ All2 (fun d rs => ∃ cellss, HoldsInside defs deleted d cellss ∧
    All2 (fun cells row => All2 (Stores l cells) cols row) cellss rs) (leafPages content cid deleted) rss

theorem same_table {env : Env} {ds ds' : List Bytes} {cid : Nat} {cols l : List Column} {defs : List ColDef} {deleted : Bool}
    {rows : List (List (Option TVal))} (h : All2 SamePage ds ds') (hn : (ds.map pageNumber).Nodup)
    (ht : TableFile env ds.flatten cid cols l defs deleted rows) (hi : PagesInside ds.flatten cid cols l defs deleted rows) :
    TableFile env ds'.flatten cid cols l defs deleted rows := by
  refine ⟨ht.names, ht.bits, ht.desc, ?_, ht.typed⟩
  obtain ⟨rss, e, hp⟩ := hi
  refine ⟨rss, e, all2_same ((same_pages h hn).2.2 cid deleted) hp ?_⟩
  rintro d d' rs hs ⟨cellss, h1, h2⟩
  exact ⟨cellss, C71_page hs h1, h2⟩

theorem same_printable {env : Env} {a : FromData} {sys : Bytes} {ds ds' : List Bytes} {trs : List TableRow} {crs : List ColumnRow}
    {irs : List IndexRow} {frs : List FieldRow} {t : TableRow} {r : IndexRow} {l : List Column} {defs : List ColDef} {deleted : Bool}
    {rows : List (List (Option TVal))} (h : All2 SamePage ds ds') (hn : (ds.map pageNumber).Nodup)
    (hp : PrintableFile env a sys ds.flatten trs crs irs frs t r l defs deleted rows) :
    PrintableFile env a sys ds'.flatten trs crs irs frs t r l defs deleted rows := by
  obtain ⟨p1, p2, p3⟩ := same_pages h hn
  have hback : ∀ d' ∈ leafPages ds'.flatten r.id deleted, ∃ d ∈ leafPages ds.flatten r.id deleted, SamePage d d' := (same_facts (p3 r.id deleted)).2.2.2
  refine { hp with mark := ⟨?_, ?_⟩, compact := ?_, redundant := ?_ }
  · intro d' hd' h1 h2
    rw [p2] at hd'
    obtain ⟨d, hd, hs⟩ := (same_facts h).2.2.2 d' hd'
    have hf := fun f h1 h2 => hs.field f h1 h2
    rw [hf PAGE_LEVEL (by decide) (by decide)] at h2
    rw [hf PAGE_MAX_TRX_ID (by decide) (by decide), hf PAGE_INDEX_ID (by decide) (by decide)]
    exact hp.mark.trx d (by rw [p1]; exact hd) (hs.type.trans h1) h2
  · intro hdel d' hd'
    obtain ⟨d, hd, hs⟩ := hback d' hd'
    rw [hs.field PAGE_GARBAGE (by decide) (by decide)]
    exact hp.mark.garbage hdel d hd
  · intro d' hd' hc
    obtain ⟨d, hd, hs⟩ := hback d' hd'
    exact hp.compact d hd (by rw [← hs.isCompact]; exact hc)
  · intro d' hd' hc
    obtain ⟨d, hd, hs⟩ := hback d' hd'
    exact hp.redundant d hd (by rw [← hs.isCompact]; exact hc)

/-- **C71, exactly:** if the rows of a file are printed (C57), they are printed for every file whose pages have the same contents, whatever their
checksums, LSNs, neighbours, space ids and trailers are. -/
theorem C71_unchecked (env : Env) (a : FromData) (sys : Bytes) (ds ds' : List Bytes) (trs : List TableRow) (crs : List ColumnRow)
    (irs : List IndexRow) (frs : List FieldRow) (t : TableRow) (r : IndexRow) (l : List Column) (defs : List ColDef) (deleted : Bool)
    (rows : List (List (Option TVal))) (h : All2 SamePage ds ds') (hn : (ds.map pageNumber).Nodup)
    (hp : PrintableFile env a sys ds.flatten trs crs irs frs t r l defs deleted rows)
    (ht : TableFile env ds.flatten r.id (columnsOf crs t.id) l defs deleted rows)
    (hi : PagesInside ds.flatten r.id (columnsOf crs t.id) l defs deleted rows) (hfile : a.tableFile = .ok ds'.flatten) (out : Out) :
    ∃ lines, fromDataFile env a out = .ok () (out ++ lines) ∧ All2 (Printed env.ff a.db a.table) lines rows := by
  have hp' := same_printable h hn hp
  exact C57_command_partial env a sys _ trs crs irs frs t r l defs deleted rows hp'.sysFile hfile hp'.dict hp'.table hp'.name hp'.layout
    (same_table h hn ht hi) hp'.op hp'.keys hp'.handled hp'.mark hp'.compact hp'.redundant hp'.values hp'.db hp'.tab out

/-- Every page with contents has a torn variant. -/
theorem C71_tearable {d : Bytes} (hd : d.length = 16384) : ∃ d', SamePage d d' ∧ Torn d' := by
  have hl : (d.take 16380).length = 16380 := by rw [List.length_take]; omega
  have key : ∀ x : UInt8, SamePage d (d.take 16380 ++ [0, 0, 0, x]) ∧ numAt (d.take 16380 ++ [0, 0, 0, x]) 20 4 = numAt d 20 4 ∧
      numAt (d.take 16380 ++ [0, 0, 0, x]) 16380 4 = x.toNat := by
    intro x
    have hnum : ∀ o w, o + w ≤ 16380 → numAt (d.take 16380 ++ [0, 0, 0, x]) o w = numAt d o w := by
      intro o w h
      unfold numAt
      rw [List.drop_append_of_le_length (by omega), List.take_append_of_le_length (by rw [List.length_drop]; omega), List.drop_take, List.take_take,
        show min w (16380 - o) = w by omega]
    refine ⟨⟨hd, ?_, (hnum 4 4 (by omega)).symm, (hnum 24 2 (by omega)).symm, ?_⟩, hnum 20 4 (by omega), ?_⟩
    · rw [List.length_append, hl]; rfl
    · rw [List.take_append_of_le_length (by omega), List.take_take, show min (16384 - 8) 16380 = 16384 - 8 by omega]
    · unfold numAt
      rw [List.drop_left' hl]
      show beVal [0, 0, 0, x] = x.toNat
      simp [beVal, List.foldl]
  by_cases h : numAt d 20 4 = 0
  · obtain ⟨h1, h2, h3⟩ := key 1
    refine ⟨_, h1, ?_⟩
    unfold Torn
    rw [h2, h3, h]
    decide
  · obtain ⟨h1, h2, h3⟩ := key 0
    refine ⟨_, h1, ?_⟩
    unfold Torn
    rw [h2, h3]
    exact h

set_option maxRecDepth 8000 in
/-- the deleted row of the shop is inside the page -/
theorem shop_inside : HoldsInside shopDefs true shopPage [shopCells 3 (some (b! "bob"))] := by
  refine .compact (shopData_compact (.inl rfl)) (shopData_records (.inl rfl) true) (.cons ⟨?_, by decide⟩ .nil)
  have hl := (shopData_length (.inl rfl : ShopRow (b! "ann"))).2
  exact shopData_row (name := b! "ann") (n := 7) (next := 0) (by decide) (by decide) (by decide) (by decide) hl (by decide)

theorem shop_pages_inside : PagesInside [shopPage].flatten 30 (columnsOf shopColumns 20) (shopLayout 20) shopDefs true (shopRows (b! "ann") true) := by
  refine ⟨[shopRows (b! "ann") true], by simp, ?_⟩
  rw [← shopPage_file, shopData_leaf (.inl rfl)]
  exact .cons ⟨_, shop_inside, .cons (shopData_stores 3 (some (b! "bob"))) .nil⟩ .nil

/-- the command for the deleted rows of the shop, with another data file -/
def tornArgs (d : Bytes) : FromData := ⟨.ok (shopFile idKey), .ok [d].flatten, b! "shop", b! "t", b! "RecoveryData"⟩

theorem torn_printable (env : Env) (d : Bytes) : PrintableFile env (tornArgs d) (shopFile idKey) [shopPage].flatten shopTables shopColumns (shopIndexes idKey)
    (shopFields idKey) ⟨b! "shop/t", 20, 5⟩ ⟨20, 30, b! "PRIMARY", 1, 3⟩ (shopLayout 20) shopDefs true (shopRows (b! "ann") true) := by
  have h := shop_printable env 0
  rw [← shopPage_file]
  exact { sysFile := by rw [tornArgs], dict := h.dict, table := h.table, name := h.name, layout := h.layout, op := by simp [tornArgs], keys := h.keys, handled := h.handled, mark := h.mark, compact := h.compact, redundant := h.redundant, values := h.values, db := h.db, tab := h.tab }

/-- **C71 (partial):** true of files all of whose pages were written completely.  (Missing: torn pages; see `C71_unchecked`.) -/
theorem C71_whole_partial (env : Env) (a : FromData) (sys : Bytes) (ds : List Bytes) (trs : List TableRow) (crs : List ColumnRow)
    (irs : List IndexRow) (frs : List FieldRow) (t : TableRow) (r : IndexRow) (l : List Column) (defs : List ColDef) (deleted : Bool)
    (rows : List (List (Option TVal))) (hw : ∀ d ∈ ds, ¬ Torn d)
    (hp : PrintableFile env a sys (wholePages ds).flatten trs crs irs frs t r l defs deleted rows)
    (ht : TableFile env (wholePages ds).flatten r.id (columnsOf crs t.id) l defs deleted rows) (hfile : a.tableFile = .ok ds.flatten) (out : Out) :
    ∃ lines, fromDataFile env a out = .ok () (out ++ lines) ∧ All2 (Printed env.ff a.db a.table) lines rows := by
  have e : wholePages ds = ds := List.filter_eq_self.mpr fun d hd => decide_eq_true (hw d hd)
  rw [e] at hp ht
  exact C57_command_partial env a sys _ trs crs irs frs t r l defs deleted rows hp.sysFile hfile hp.dict hp.table hp.name hp.layout
    ht hp.op hp.keys hp.handled hp.mark hp.compact hp.redundant hp.values hp.db hp.tab out

set_option maxRecDepth 8000 in
theorem shopPage_whole : ¬ Torn shopPage := by
  intro h
  apply h
  have e1 : numAt shopPage 20 4 = 0 := by
    rw [shopPage, show numAt (pad (shopDataPage (b! "ann"))) 20 4 = numAt (shopDataPage (b! "ann")) 20 4 from shopData_field (.inl rfl) (20, 4) (by decide)]
    decide
  have e2 : numAt shopPage 16380 4 = 0 := by
    have hl := shopData_length (.inl rfl : ShopRow (b! "ann"))
    unfold numAt shopPage pad
    rw [List.drop_append, List.drop_of_length_le (by omega), List.nil_append, List.drop_replicate, List.take_replicate, beVal_zeros]
  rw [e1, e2]

/-- **C71 is false:** the rows of a page that was not written completely are printed. -/
theorem C71_false : ¬ C71_statement := by
  intro h
  obtain ⟨d, hs, ht⟩ := C71_tearable shopPage_length
  have hall : All2 SamePage [shopPage] [d] := .cons hs .nil
  have hn : ([shopPage].map pageNumber).Nodup := by simp
  have htab : TableFile testEnv [shopPage].flatten 30 (columnsOf shopColumns 20) (shopLayout 20) shopDefs true (shopRows (b! "ann") true) := by
    rw [← shopPage_file]; exact shopData_file testEnv (.inl rfl) true
  have hfile : (tornArgs d).tableFile = .ok [d].flatten := by rw [tornArgs]
  have hwhole : (wholePages [d]).flatten = [] := by
    unfold wholePages
    rw [List.filter_cons_of_neg (by simpa using ht), List.filter_nil, List.flatten_nil]
  have hpages : filePages [] = [] := images_flatten [] (by simp) (by simp)
  have hleaf : ∀ cid, leafPages [] cid true = [] := fun cid => by unfold leafPages; rw [hpages]; rfl
  have hp := torn_printable testEnv d
  obtain ⟨lines, h1, h1'⟩ := h testEnv (tornArgs d) (shopFile idKey) [d] shopTables shopColumns (shopIndexes idKey)
    (shopFields idKey) ⟨b! "shop/t", 20, 5⟩ ⟨20, 30, b! "PRIMARY", 1, 3⟩ (shopLayout 20) shopDefs true []
    (by intro x hx; cases List.mem_singleton.mp hx; exact hs.length') (by simp)
    (by
      rw [hwhole]
      exact { hp with
        mark := ⟨by rw [hpages]; simp, by intro _ x hx; rw [hleaf] at hx; cases hx⟩
        compact := by intro x hx; rw [hleaf] at hx; cases hx
        redundant := by intro x hx; rw [hleaf] at hx; cases hx
        values := by simp })
    (by
      rw [hwhole]
      exact ⟨htab.names, htab.bits, htab.desc, ⟨[], rfl, by rw [hleaf]; exact .nil⟩, by simp⟩) hfile []
  obtain ⟨lines', h2, h3⟩ := C71_unchecked testEnv (tornArgs d) _ _ _ _ _ _ _ _ _ _ _ true _ hall hn hp htab shop_pages_inside hfile []
  rw [h2] at h1
  injection h1 with _ h1
  rw [List.nil_append, List.nil_append] at h1
  subst h1
  have e1 := all2_length h1'
  have e2 := all2_length h3
  rw [e1] at e2
  simp [shopRows] at e2

/-- the hypotheses of `C71_whole_partial` -/
example (env : Env) (out : Out) : ∃ lines, fromDataFile env (tornArgs shopPage) out = .ok () (out ++ lines) ∧
    All2 (Printed env.ff (b! "shop") (b! "t")) lines [[some (.int 4 3), some (.varchar (b! "bob"))]] := by
  have hw : ∀ d ∈ [shopPage], ¬ Torn d := by
    intro d hd
    cases List.mem_singleton.mp hd
    exact shopPage_whole
  have e : wholePages [shopPage] = [shopPage] := List.filter_eq_self.mpr fun d hd => decide_eq_true (hw d hd)
  refine C71_whole_partial env (tornArgs shopPage) _ [shopPage] _ _ _ _ _ _ _ _ true _ hw (by rw [e]; exact torn_printable env shopPage) ?_
    (by rw [tornArgs]) out
  rw [e, ← shopPage_file]
  exact shopData_file env (.inl rfl) true

/-- the hypotheses of `C71_unchecked` are met by the shop and by every page with the contents of its page -/
example (env : Env) (d : Bytes) (h : SamePage shopPage d) (out : Out) : ∃ lines, fromDataFile env (tornArgs d) out = .ok () (out ++ lines) ∧
    All2 (Printed env.ff (b! "shop") (b! "t")) lines [[some (.int 4 3), some (.varchar (b! "bob"))]] := by
  have htab : TableFile env [shopPage].flatten 30 (columnsOf shopColumns 20) (shopLayout 20) shopDefs true (shopRows (b! "ann") true) := by
    rw [← shopPage_file]; exact shopData_file env (.inl rfl) true
  exact C71_unchecked env (tornArgs d) _ [shopPage] [d] _ _ _ _ _ _ _ _ true _ (.cons h .nil) (by simp) (torn_printable env d) htab shop_pages_inside
    (by rw [tornArgs]) out

end Verif.Props
