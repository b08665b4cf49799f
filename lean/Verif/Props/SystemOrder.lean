import Verif.Props.PageOrderRows
import Verif.Props.OtherTables
import Verif.Props.SystemPages
/-!
# C118: the order of the pages of the dictionary

The pages of a tree are numbered in the order in which they were allocated, not in that of the keys on them.  The tool reads the pages of SYS_COLUMNS in the
order of the file and takes the columns of a table in the order in which it meets them, although each row has the position of its column.
-/

namespace Verif.Props
open Verif Spec

/-! ## Dictionaries, page by page -/

/-- the rows on the pages of a tree, for each page in the order of the list -/
def TreeRows {ρ : Type} (pages : List Bytes) (root id : Nat) (leaf : ρ → List OldCell → Prop) (key : List (Option Nat)) (rss : List (List ρ)) : Prop :=
  ∃ (d : Bytes) (ds : List Bytes), pages.filter (fun d => field d PAGE_INDEX_ID == id) = d :: ds ∧ pageNumber d = root ∧ All2 (TreePage leaf key) (d :: ds) rss

/-- the rows of the dictionary, for each page of the four trees -/
def SystemRows (ps : List Bytes) (trss : List (List TableRow)) (crss : List (List ColumnRow)) (irss : List (List IndexRow)) (frss : List (List FieldRow)) : Prop :=
  ∃ h ∈ ps, pageNumber h = 7 ∧ TreeRows ps (field h DICT_HDR_TABLES) 1 TablesLeaf [none] trss ∧
    TreeRows ps (field h DICT_HDR_COLUMNS) 2 ColumnsLeaf [some 8, some 4] crss ∧ TreeRows ps (field h DICT_HDR_INDEXES) 3 IndexesLeaf [some 8, some 8] irss ∧
    TreeRows ps (field h DICT_HDR_FIELDS) 4 FieldsLeaf [some 8, some 4] frss

/-- The first pages of the four trees, which are their roots, are the same in both lists. -/
def RootsFirst (ps qs : List Bytes) : Prop :=
  ∀ id ∈ dictIds, (qs.filter fun d => field d PAGE_INDEX_ID == id).head? = (ps.filter fun d => field d PAGE_INDEX_ID == id).head?

/-- The rows are in the order of their keys. -/
structure InKeyOrder (crs : List ColumnRow) (irs : List IndexRow) (frs : List FieldRow) : Prop where
  columns : crs.Pairwise fun c c' => c.tableId < c'.tableId ∨ c.tableId = c'.tableId ∧ c.pos < c'.pos
  indexes : irs.Pairwise fun r r' => r.tableId < r'.tableId ∨ r.tableId = r'.tableId ∧ r.id < r'.id
  fields : frs.Pairwise fun f f' => f.indexId < f'.indexId ∨ f.indexId = f'.indexId ∧ f.pos < f'.pos

/-- **C118**, as stated: if `ps` are the pages of the system file in the order of the keys, the data command prints the same whatever the order of the pages in the
file, in which the roots come first. -/
def C118_statement : Prop :=
  ∀ (env : Env) (a : FromData) (ps qs : List Bytes) (trss : List (List TableRow)) (crss : List (List ColumnRow)) (irss : List (List IndexRow))
    (frss : List (List FieldRow)) (t : TableRow), Pages ps → ps.Perm qs → RootsFirst ps qs → SystemRows ps trss crss irss frss →
    InKeyOrder crss.flatten irss.flatten frss.flatten → Dictionary ps.flatten trss.flatten crss.flatten irss.flatten frss.flatten →
    (∀ t ∈ trss.flatten, UsualKeys irss.flatten frss.flatten crss.flatten t.id) → t ∈ trss.flatten → t.name = a.db ++ b! "/" ++ a.table →
    ∀ out, fromDataFile env { a with sysFile := .ok ps.flatten } out = fromDataFile env { a with sysFile := .ok qs.flatten } out

/-! ## Reordering the pages -/

theorem treeRows_perm {ρ : Type} {ps qs : List Bytes} {root id : Nat} {leaf : ρ → List OldCell → Prop} {key : List (Option Nat)} {rss : List (List ρ)}
    (hp : ps.Perm qs) (hh : (qs.filter fun d => field d PAGE_INDEX_ID == id).head? = (ps.filter fun d => field d PAGE_INDEX_ID == id).head?)
    (h : TreeRows ps root id leaf key rss) : ∃ rss', rss.Perm rss' ∧ TreeRows qs root id leaf key rss' := by
  obtain ⟨d, ds, h1, h2, h3⟩ := h
  have hf := hp.filter fun d => field d PAGE_INDEX_ID == id
  rw [h1] at hf hh
  obtain ⟨rss', h4, h5⟩ := all2_perm hf h3
  cases hq : qs.filter fun d => field d PAGE_INDEX_ID == id with
  | nil => rw [hq] at hh; cases hh
  | cons d' ds' =>
    rw [hq] at hh h5
    obtain rfl : d' = d := by simpa using hh
    exact ⟨rss', h4, d', ds', hq, h2, h5⟩

theorem systemRows_perm {ps qs : List Bytes} {trss : List (List TableRow)} {crss : List (List ColumnRow)} {irss : List (List IndexRow)}
    {frss : List (List FieldRow)} (hp : ps.Perm qs) (hr : RootsFirst ps qs) (h : SystemRows ps trss crss irss frss) :
    ∃ trss' crss' irss' frss', trss.Perm trss' ∧ crss.Perm crss' ∧ irss.Perm irss' ∧ frss.Perm frss' ∧ SystemRows qs trss' crss' irss' frss' := by
  obtain ⟨d, hd, h7, h1, h2, h3, h4⟩ := h
  obtain ⟨r1, p1, h1⟩ := treeRows_perm hp (hr 1 (by decide)) h1
  obtain ⟨r2, p2, h2⟩ := treeRows_perm hp (hr 2 (by decide)) h2
  obtain ⟨r3, p3, h3⟩ := treeRows_perm hp (hr 3 (by decide)) h3
  obtain ⟨r4, p4, h4⟩ := treeRows_perm hp (hr 4 (by decide)) h4
  exact ⟨r1, r2, r3, r4, p1, p2, p3, p4, d, hp.mem_iff.mp hd, h7, h1, h2, h3, h4⟩

theorem treeRows_tree {ρ : Type} {ps : List Bytes} {root id : Nat} {leaf : ρ → List OldCell → Prop} {key : List (Option Nat)} {rss : List (List ρ)}
    (h : TreeRows ps root id leaf key rss) : Tree ps root id leaf key rss.flatten := by
  obtain ⟨d, ds, h1, h2, h3⟩ := h
  exact ⟨d, ds, rss, h1, h2, h3, rfl⟩

theorem systemRows_file {ps : List Bytes} {trss : List (List TableRow)} {crss : List (List ColumnRow)} {irss : List (List IndexRow)}
    {frss : List (List FieldRow)} (hp : Pages ps) (h : SystemRows ps trss crss irss frss) :
    SystemFile ps.flatten trss.flatten crss.flatten irss.flatten frss.flatten := by
  obtain ⟨d, hd, h7, h1, h2, h3, h4⟩ := h
  have e : filePages ps.flatten = ps := images_flatten _ hp.whole hp.numbers
  unfold SystemFile
  rw [e]
  exact ⟨d, hd, h7, treeRows_tree h1, treeRows_tree h2, treeRows_tree h3, treeRows_tree h4⟩

/-- **What is read:** the dictionary with the rows in the order of the file. -/
theorem C118_read {ps qs : List Bytes} {trss : List (List TableRow)} {crss : List (List ColumnRow)} {irss : List (List IndexRow)}
    {frss : List (List FieldRow)} (hp : Pages ps) (hq : ps.Perm qs) (hr : RootsFirst ps qs) (hs : SystemRows ps trss crss irss frss)
    (hd : Dictionary ps.flatten trss.flatten crss.flatten irss.flatten frss.flatten) :
    ∃ trss' crss' irss' frss', trss.Perm trss' ∧ crss.Perm crss' ∧ irss.Perm irss' ∧ frss.Perm frss' ∧
      Dictionary qs.flatten trss'.flatten crss'.flatten irss'.flatten frss'.flatten := by
  obtain ⟨r1, r2, r3, r4, p1, p2, p3, p4, h⟩ := systemRows_perm hq hr hs
  have q1 := flatten_perm p1
  refine ⟨r1, r2, r3, r4, p1, p2, p3, p4, systemRows_file (hp.perm hq) h, ?_, ?_, ?_, ?_⟩
  · intro r hr
    obtain ⟨t, ht, he⟩ := hd.indexes r ((flatten_perm p3).mem_iff.mpr hr)
    exact ⟨t, q1.mem_iff.mp ht, he⟩
  · exact (q1.map _).nodup_iff.mp hd.ids
  · exact (q1.map _).nodup_iff.mp hd.names.1
  · exact fun t ht => hd.names.2 t (q1.mem_iff.mpr ht)

/-- At most one page has rows of this kind. -/
def OnOnePage {ρ : Type} (P : ρ → Bool) (rss : List (List ρ)) : Prop := rss.Pairwise fun rs rs' => rs.filter P = [] ∨ rs'.filter P = []

theorem onePage_filter {ρ : Type} {P : ρ → Bool} {rss rss' : List (List ρ)} (hp : rss.Perm rss') (h : OnOnePage P rss) :
    rss.flatten.filter P = rss'.flatten.filter P := by
  induction hp with
  | nil => rfl
  | cons x _ ih => rw [List.flatten_cons, List.flatten_cons, List.filter_append, List.filter_append, ih (List.pairwise_cons.mp h).2]
  | swap x y l =>
    simp only [List.flatten_cons, List.filter_append]
    rcases (List.pairwise_cons.mp h).1 x List.mem_cons_self with h | h <;> rw [h] <;> simp
  | trans h1 _ i1 i2 => exact (i1 h).trans (i2 (((h1.pairwise_iff fun h => h.symm)).mp h))

theorem usual_same {id : Nat} {crs crs' : List ColumnRow} {irs irs' : List IndexRow} {frs frs' : List FieldRow} (h : SameRows id crs irs frs crs' irs' frs')
    (hu : UsualKeys irs frs crs id) : UsualKeys irs' frs' crs' id := by
  have hc : columnsOf crs' id = columnsOf crs id := by unfold columnsOf; rw [h.columns]
  have hi : ∀ x, x.tableId = id → (x ∈ irs' ↔ x ∈ irs) := by
    intro x hx
    have := List.mem_filter (x := x) (as := irs) (p := fun y => y.tableId == id)
    rw [h.indexes, List.mem_filter] at this
    simpa [hx] using this
  rcases hu with hu | ⟨r, ⟨h1, h2, h3⟩, hu⟩
  · exact .inl fun x hx he => hu x ((hi x he).mp hx) he
  · refine .inr ⟨r, ⟨(hi r h2).mpr h1, h2, fun x hx he => h3 x ((hi x he).mp hx) he⟩, ?_⟩
    have hf : fieldsOf frs' r = fieldsOf frs r := by unfold fieldsOf; rw [h.fields r h1 h2]
    rw [hf, hc]
    exact hu

/-- **C118, in part:** true if the columns of each table are on one page, and so are its indexes and the columns of each index.  (Missing: tables whose columns are
on several pages, see `C118_false`.) -/
theorem C118_one_page_partial (env : Env) (a : FromData) (ps qs : List Bytes) (trss : List (List TableRow)) (crss : List (List ColumnRow))
    (irss : List (List IndexRow)) (frss : List (List FieldRow)) (t : TableRow) (hp : Pages ps) (hq : ps.Perm qs) (hr : RootsFirst ps qs)
    (hs : SystemRows ps trss crss irss frss) (hd : Dictionary ps.flatten trss.flatten crss.flatten irss.flatten frss.flatten)
    (hu : ∀ t ∈ trss.flatten, UsualKeys irss.flatten frss.flatten crss.flatten t.id) (ht : t ∈ trss.flatten) (hname : t.name = a.db ++ b! "/" ++ a.table)
    (hcols : ∀ t ∈ trss.flatten, OnOnePage (·.tableId == t.id) crss) (hinds : ∀ t ∈ trss.flatten, OnOnePage (·.tableId == t.id) irss)
    (hflds : ∀ r ∈ irss.flatten, OnOnePage (·.indexId == r.id) frss) (out : Out) :
    fromDataFile env { a with sysFile := .ok ps.flatten } out = fromDataFile env { a with sysFile := .ok qs.flatten } out := by
  obtain ⟨trss', crss', irss', frss', p1, p2, p3, p4, hd'⟩ := C118_read hp hq hr hs hd
  have hsame : ∀ t ∈ trss.flatten, SameRows t.id crss.flatten irss.flatten frss.flatten crss'.flatten irss'.flatten frss'.flatten := fun t ht =>
    ⟨onePage_filter p2 (hcols t ht), onePage_filter p3 (hinds t ht), fun r hr _ => onePage_filter p4 (hflds r hr)⟩
  exact C104_other_tables env a ps.flatten qs.flatten _ _ _ _ _ _ _ _ t hd hd' hu
    (fun t ht => usual_same (hsame t ((flatten_perm p1).mem_iff.mpr ht)) (hu t ((flatten_perm p1).mem_iff.mpr ht))) ht ((flatten_perm p1).mem_iff.mp ht) hname
    (hsame t ht) out

/-- For any division of the rows into pages, it is enough that the rows of the tables come in the same order. -/
theorem C118_same_order_partial (env : Env) (a : FromData) (ps qs : List Bytes) (trss trss' : List (List TableRow)) (crss crss' : List (List ColumnRow))
    (irss irss' : List (List IndexRow)) (frss frss' : List (List FieldRow)) (t : TableRow) (hp : Pages ps) (hq : ps.Perm qs)
    (hs' : SystemRows qs trss' crss' irss' frss') (htrs : trss.flatten.Perm trss'.flatten) (hirs : irss.flatten.Perm irss'.flatten)
    (hd : Dictionary ps.flatten trss.flatten crss.flatten irss.flatten frss.flatten)
    (hu : ∀ t ∈ trss.flatten, UsualKeys irss.flatten frss.flatten crss.flatten t.id) (ht : t ∈ trss.flatten) (hname : t.name = a.db ++ b! "/" ++ a.table)
    (hsame : ∀ t ∈ trss.flatten, SameRows t.id crss.flatten irss.flatten frss.flatten crss'.flatten irss'.flatten frss'.flatten) (out : Out) :
    fromDataFile env { a with sysFile := .ok ps.flatten } out = fromDataFile env { a with sysFile := .ok qs.flatten } out := by
  have hd' : Dictionary qs.flatten trss'.flatten crss'.flatten irss'.flatten frss'.flatten := by
    refine ⟨systemRows_file (hp.perm hq) hs', ?_, (htrs.map _).nodup_iff.mp hd.ids, (htrs.map _).nodup_iff.mp hd.names.1,
      fun t ht => hd.names.2 t (htrs.mem_iff.mpr ht)⟩
    intro r hr
    obtain ⟨t, ht, he⟩ := hd.indexes r (hirs.mem_iff.mpr hr)
    exact ⟨t, htrs.mem_iff.mp ht, he⟩
  exact C104_other_tables env a ps.flatten qs.flatten _ _ _ _ _ _ _ _ t hd hd' hu
    (fun t ht => usual_same (hsame t (htrs.mem_iff.mpr ht)) (hu t (htrs.mem_iff.mpr ht))) ht (htrs.mem_iff.mp ht) hname (hsame t ht) out

/-! ## Columns on two pages -/

/-- Tables `t` with the columns `a`, INT UNSIGNED, and `b`, INT, and `u` with the column `c`, both without a primary key. -/
def spreadTables : List TableRow := [⟨b! "shop/t", 20, 5⟩, ⟨b! "shop/u", 21, 6⟩]
def spreadA : ColumnRow := ⟨20, 0, b! "a", 6, 1795, 4⟩
def spreadB : ColumnRow := ⟨20, 1, b! "b", 6, 1283, 4⟩
def spreadC : ColumnRow := ⟨21, 0, b! "c", 6, 1283, 4⟩
def spreadIndexes : List IndexRow := [⟨20, 30, b! "GEN_CLUST_INDEX", 0, 1⟩, ⟨21, 31, b! "GEN_CLUST_INDEX", 0, 1⟩]
/-- the record of the root of SYS_COLUMNS -/
def spreadNode : List OldCell := [wcell (beEnc 8 20), wcell (beEnc 4 0), wcell (beEnc 4 20)]

def spreadLeaf (l : Nat × List ColumnRow) : Bytes := fill (sysTree l.1 2 (l.2.map columnRec))

/-- the system file with these leaves of SYS_COLUMNS -/
def spreadPages (ls : List (Nat × List ColumnRow)) : List Bytes :=
  [fill sysHeader, fill (sysTree 8 1 (spreadTables.map tableRec)), fill (sysTree 10 2 [spreadNode]), fill (sysTree 11 3 (spreadIndexes.map indexRec)),
    fill (sysTree 12 4 [])] ++ ls.map spreadLeaf

/-- the leaves considered: the columns are divided behind the first or the second, in either order of the pages -/
def spreadLeaves (n : Nat) : List (Nat × List ColumnRow) := [(20, [spreadA, spreadB, spreadC].take n), (21, [spreadA, spreadB, spreadC].drop n)]
def Spread (ls : List (Nat × List ColumnRow)) : Prop :=
  ls = spreadLeaves 1 ∨ ls = (spreadLeaves 1).reverse ∨ ls = spreadLeaves 2 ∨ ls = (spreadLeaves 2).reverse

theorem spread_leaf {ls : List (Nat × List ColumnRow)} (h : Spread ls) : ∀ l ∈ ls, OnePage (l.2.map columnRec) ∧ l.1 < 2 ^ 32 ∧
    ∀ r ∈ l.2, r.tableId < 2 ^ 64 ∧ r.pos < 2 ^ 32 ∧ r.mtype < 2 ^ 32 ∧ r.prtype < 2 ^ 32 ∧ r.len < 2 ^ 32 := by
  rcases h with rfl | rfl | rfl | rfl <;> decide

theorem spread_numbers {ls : List (Nat × List ColumnRow)} (h : Spread ls) : ([7, 8, 10, 11, 12] ++ List.map Prod.fst ls).Nodup := by
  rcases h with rfl | rfl | rfl | rfl <;> decide

theorem spread_tablesPage : PageOf (fill (sysTree 8 1 (spreadTables.map tableRec))) false 8 1 ((spreadTables.map tableRec).map oldRec) [] :=
  sysTree_page (by decide) (by decide) (by decide)
theorem spread_rootPage : PageOf (fill (sysTree 10 2 [spreadNode])) false 10 2 [oldRec spreadNode] [] :=
  sysTree_page (f := fun _ : Unit => spreadNode) (rs := [()]) (by decide) (by decide) (by decide)
theorem spread_indexesPage : PageOf (fill (sysTree 11 3 (spreadIndexes.map indexRec))) false 11 3 ((spreadIndexes.map indexRec).map oldRec) [] :=
  sysTree_page (by decide) (by decide) (by decide)
theorem spread_fieldsPage : PageOf (fill (sysTree 12 4 [])) false 12 4 [] [] :=
  sysTree_page (f := fieldRec) (rs := []) (by decide) (by decide) (by decide)
theorem spread_leafPage {ls : List (Nat × List ColumnRow)} (h : Spread ls) (l : Nat × List ColumnRow) (hl : l ∈ ls) :
    PageOf (spreadLeaf l) false l.1 2 ((l.2.map columnRec).map oldRec) [] :=
  sysTree_page (spread_leaf h l hl).1 (spread_leaf h l hl).2.1 (by decide)

theorem spread_header : pageNumber (fill sysHeader) = 7 ∧ field (fill sysHeader) PAGE_INDEX_ID = 8 ∧ field (fill sysHeader) DICT_HDR_TABLES = 8 ∧
    field (fill sysHeader) DICT_HDR_COLUMNS = 10 ∧ field (fill sysHeader) DICT_HDR_INDEXES = 11 ∧ field (fill sysHeader) DICT_HDR_FIELDS = 12 :=
  ⟨(numAt_header 4 4 (by decide)).trans (by decide), (numAt_header 66 8 (by decide)).trans (by decide), (numAt_header 70 4 (by decide)).trans (by decide),
    (numAt_header 78 4 (by decide)).trans (by decide), (numAt_header 82 4 (by decide)).trans (by decide), (numAt_header 86 4 (by decide)).trans (by decide)⟩

theorem spread_headerLength : (fill sysHeader).length = 16384 := pad_length _ (by decide)

theorem spread_leafNumbers {ls : List (Nat × List ColumnRow)} (h : Spread ls) : (ls.map spreadLeaf).map pageNumber = List.map Prod.fst ls := by
  have hx := spread_leafPage h
  generalize ls = ks at hx
  induction ks with
  | nil => rfl
  | cons l ks ih =>
    rw [List.map_cons, List.map_cons, List.map_cons, ih fun k hk => hx k (List.mem_cons_of_mem _ hk), (hx l List.mem_cons_self).number]

theorem spread_pages {ls : List (Nat × List ColumnRow)} (h : Spread ls) : Pages (spreadPages ls) where
  whole := by
    intro p hp
    rcases List.mem_append.mp hp with hp | hp
    · simp only [List.mem_cons, List.not_mem_nil, or_false] at hp
      rcases hp with rfl | rfl | rfl | rfl | rfl
      · exact spread_headerLength
      · exact spread_tablesPage.length
      · exact spread_rootPage.length
      · exact spread_indexesPage.length
      · exact spread_fieldsPage.length
    · obtain ⟨l, hl, rfl⟩ := List.mem_map.mp hp
      exact (spread_leafPage h l hl).length
  numbers := by
    unfold spreadPages
    rw [List.map_append, spread_leafNumbers h]
    simp only [List.map_cons, List.map_nil, spread_header.1, spread_tablesPage.number, spread_rootPage.number, spread_indexesPage.number,
      spread_fieldsPage.number]
    exact spread_numbers h

theorem spread_filter {ls : List (Nat × List ColumnRow)} (h : Spread ls) (id : Nat) :
    (spreadPages ls).filter (fun d => field d PAGE_INDEX_ID == id) =
      (if 8 = id then [fill sysHeader] else []) ++ (if 1 = id then [fill (sysTree 8 1 (spreadTables.map tableRec))] else []) ++
      (if 2 = id then [fill (sysTree 10 2 [spreadNode])] else []) ++ (if 3 = id then [fill (sysTree 11 3 (spreadIndexes.map indexRec))] else []) ++
      (if 4 = id then [fill (sysTree 12 4 [])] else []) ++ (if 2 = id then ls.map spreadLeaf else []) := by
  unfold spreadPages
  rw [List.filter_append]
  congr 1
  · have e1 := spread_header.2.1
    have e2 := spread_tablesPage.index
    have e3 := spread_rootPage.index
    have e4 := spread_indexesPage.index
    have e5 := spread_fieldsPage.index
    generalize fill sysHeader = d1 at *
    generalize fill (sysTree 8 1 (spreadTables.map tableRec)) = d2 at *
    generalize fill (sysTree 10 2 [spreadNode]) = d3 at *
    generalize fill (sysTree 11 3 (spreadIndexes.map indexRec)) = d4 at *
    generalize fill (sysTree 12 4 []) = d5 at *
    simp only [List.filter_cons, List.filter_nil, e1, e2, e3, e4, e5, beq_iff_eq]
    split <;> split <;> split <;> split <;> split <;> rfl
  · split
    · rename_i hid
      rw [List.filter_eq_self]
      intro d hd
      obtain ⟨l, hl, rfl⟩ := List.mem_map.mp hd
      rw [(spread_leafPage h l hl).index, hid, beq_self_eq_true]
    · rename_i hid
      rw [List.filter_eq_nil_iff]
      intro d hd
      obtain ⟨l, hl, rfl⟩ := List.mem_map.mp hd
      rw [(spread_leafPage h l hl).index]
      simpa using hid

theorem spread_leaves {ls : List (Nat × List ColumnRow)} (h : Spread ls) :
    All2 (TreePage ColumnsLeaf [some 8, some 4]) (ls.map spreadLeaf) (ls.map (·.2)) := by
  have hx := spread_leaf h
  have hy := spread_leafPage h
  generalize ls = ks at hx hy
  induction ks with
  | nil => exact .nil
  | cons l ks ih =>
    refine .cons (sysTree_tree (hy l List.mem_cons_self) ?_) (ih (fun k hk => hx k (List.mem_cons_of_mem _ hk)) fun k hk => hy k (List.mem_cons_of_mem _ hk))
    intro r hr
    obtain ⟨a, b, c, d, e⟩ := (hx l List.mem_cons_self).2.2 r hr
    exact ⟨a, b, c, d, e, nul 6, nul 7, nul 4, rfl, rfl, rfl, rfl⟩

theorem spread_rows {ls : List (Nat × List ColumnRow)} (h : Spread ls) :
    SystemRows (spreadPages ls) [spreadTables] ([] :: ls.map (·.2)) [spreadIndexes] [[]] := by
  obtain ⟨n0, -, r1, r2, r3, r4⟩ := spread_header
  refine ⟨fill sysHeader, by simp [spreadPages], n0, ⟨_, [], by rw [spread_filter h]; rfl, spread_tablesPage.number.trans r1.symm, .cons ?_ .nil⟩,
    ⟨_, ls.map spreadLeaf, by rw [spread_filter h]; rfl, spread_rootPage.number.trans r2.symm, .cons ?_ (spread_leaves h)⟩,
    ⟨_, [], by rw [spread_filter h]; rfl, spread_indexesPage.number.trans r3.symm, .cons ?_ .nil⟩,
    ⟨_, [], by rw [spread_filter h]; rfl, spread_fieldsPage.number.trans r4.symm, .cons ?_ .nil⟩⟩
  · refine sysTree_tree spread_tablesPage ?_
    intro r hr
    have : r.id < 2 ^ 64 ∧ r.space < 2 ^ 32 := by revert r; decide
    exact ⟨this.1, this.2, nul 6, nul 7, nul 4, beEnc 4 1, nul 8, nul 4, [], rfl, rfl, rfl, rfl, rfl, rfl⟩
  · have hu := spread_rootPage.used
    have hl := spread_rootPage.linked
    have hf := spread_rootPage.fmt
    generalize fill (sysTree 10 2 [spreadNode]) = d at hu hl hf
    cases hu with
    | cons h1 _ => exact .node hf hl (written_old h1.1) ⟨[wcell (beEnc 8 20), wcell (beEnc 4 0)], wcell (beEnc 4 20), rfl, rfl, by decide⟩
  · refine sysTree_tree spread_indexesPage ?_
    intro r hr
    have : r.tableId < 2 ^ 64 ∧ r.id < 2 ^ 64 ∧ r.nFields < 2 ^ 32 ∧ r.itype < 2 ^ 32 := by revert r; decide
    exact ⟨this.1, this.2.1, this.2.2.1, this.2.2.2, nul 6, nul 7, nul 4, nul 4, rfl, rfl, rfl, rfl, rfl⟩
  · exact sysTree_tree (f := fieldRec) (rs := []) spread_fieldsPage (by simp)

theorem spread_dictionary {ls : List (Nat × List ColumnRow)} (h : Spread ls) :
    Dictionary (spreadPages ls).flatten spreadTables (ls.map (·.2)).flatten spreadIndexes [] where
  file := by
    have := systemRows_file (spread_pages h) (spread_rows h)
    simpa using this
  indexes := by decide
  ids := by decide
  names := ⟨by decide, fun t ht => by
    simp only [spreadTables, List.mem_cons, List.not_mem_nil, or_false] at ht
    rcases ht with rfl | rfl
    · exact .inr ⟨b! "shop", b! "t", rfl, by decide, by decide, by decide⟩
    · exact .inr ⟨b! "shop", b! "u", rfl, by decide, by decide, by decide⟩⟩

theorem spread_usual (crs : List ColumnRow) : ∀ t ∈ spreadTables, UsualKeys spreadIndexes [] crs t.id := by
  intro t ht
  simp only [spreadTables, List.mem_cons, List.not_mem_nil, or_false] at ht
  rcases ht with rfl | rfl
  · exact .inr ⟨⟨20, 30, b! "GEN_CLUST_INDEX", 0, 1⟩, by decide, .inl rfl⟩
  · exact .inr ⟨⟨21, 31, b! "GEN_CLUST_INDEX", 0, 1⟩, by decide, .inl rfl⟩

theorem spread_roots {ls ks : List (Nat × List ColumnRow)} (h : Spread ls) (h' : Spread ks) : RootsFirst (spreadPages ls) (spreadPages ks) := by
  intro id hid
  rw [spread_filter h, spread_filter h']
  have : id = 1 ∨ id = 2 ∨ id = 3 ∨ id = 4 := by simpa [dictIds] using hid
  rcases this with rfl | rfl | rfl | rfl <;> rfl

theorem spread_perm (ls : List (Nat × List ColumnRow)) : (spreadPages ls).Perm (spreadPages ls.reverse) := by
  unfold spreadPages
  rw [List.map_reverse]
  exact List.Perm.append_left _ (List.reverse_perm _).symm

/-- The hypotheses of `C118_one_page_partial`: the columns of `t` on one page, that of `u` on the other, which comes first in the file. -/
example (env : Env) (a : FromData) (ha : a.db = b! "shop") (ht : a.table = b! "t") (out : Out) :
    fromDataFile env { a with sysFile := .ok (spreadPages (spreadLeaves 2)).flatten } out =
      fromDataFile env { a with sysFile := .ok (spreadPages (spreadLeaves 2).reverse).flatten } out := by
  have h2 : Spread (spreadLeaves 2) := .inr (.inr (.inl rfl))
  have h3 : Spread (spreadLeaves 2).reverse := .inr (.inr (.inr rfl))
  exact C118_one_page_partial env a _ _ _ _ _ _ ⟨b! "shop/t", 20, 5⟩ (spread_pages h2) (spread_perm _) (spread_roots h2 h3) (spread_rows h2)
    (spread_dictionary h2) (spread_usual _) (by decide) (by rw [ha, ht]; rfl) (by unfold OnOnePage; decide) (by unfold OnOnePage; decide)
    (by unfold OnOnePage; decide) out

/-- The hypotheses of `C118_same_order_partial` for the same files. -/
example (env : Env) (a : FromData) (ha : a.db = b! "shop") (ht : a.table = b! "t") (out : Out) :
    fromDataFile env { a with sysFile := .ok (spreadPages (spreadLeaves 2)).flatten } out =
      fromDataFile env { a with sysFile := .ok (spreadPages (spreadLeaves 2).reverse).flatten } out := by
  have h2 : Spread (spreadLeaves 2) := .inr (.inr (.inl rfl))
  have h3 : Spread (spreadLeaves 2).reverse := .inr (.inr (.inr rfl))
  refine C118_same_order_partial env a _ _ [spreadTables] [spreadTables] ([] :: (spreadLeaves 2).map fun l : Nat × List ColumnRow => l.2) _ [spreadIndexes] [spreadIndexes] [[]] _
    ⟨b! "shop/t", 20, 5⟩ (spread_pages h2) (spread_perm _) (spread_rows h3) (.refl _) (.refl _)
    (spread_dictionary h2) (spread_usual _) (by decide) (by rw [ha, ht]; rfl) ?_ out
  intro t ht
  have : t.id = 20 ∨ t.id = 21 := by revert t; decide
  rcases this with h | h <;> rw [h] <;> exact ⟨by decide, by decide, by decide⟩

/-! ## The data file -/

def spreadDefs : List ColDef := [⟨.system 6, false⟩, ⟨.system 6, false⟩, ⟨.system 7, false⟩, ⟨.int 4, false⟩, ⟨.int 4, false⟩]
/-- the row (1, 1) -/
def spreadCells : List Cell := [.val (zeros 6), .val (zeros 6), .val (zeros 7), cellOfVal (some (.uint 4 1)), cellOfVal (some (.int 4 1))]
def spreadData : Bytes := writePages 30 spreadDefs [([spreadCells], [])]
def spreadLayout (crs : List ColumnRow) : List Column := rowIdColumn 20 :: trxColumn 20 1 :: rollColumn 20 2 :: columnsOf crs 20
def spreadArgs (sys : Bytes) : FromData :=
  { sysFile := .ok sys, db := b! "shop", table := b! "t", opType := b! "RecoveryStruct", tableFile := .ok spreadData }

theorem spread_fits : Fits 30 spreadDefs [([spreadCells], [])] := ⟨by decide, by decide, by decide⟩

/-- what is printed if the columns are met in this order -/
theorem spread_printed (env : Env) {ls : List (Nat × List ColumnRow)} (h : Spread ls) (crs : List ColumnRow) (hc : (ls.map (·.2)).flatten = crs)
    (row : List (Option TVal)) (names : ((columnsOf crs 20).map (·.name)).Nodup ∧ ∀ c ∈ columnsOf crs 20, c.name ∉ internalNames)
    (bits : ∀ c ∈ columnsOf crs 20, c.mtype = MYSQL_TYPE_BIT → c.ftype = DATA_FIXBINARY) (desc : All2 Describes (spreadLayout crs) spreadDefs)
    (stores : All2 (Stores (spreadLayout crs) spreadCells) (columnsOf crs 20) row)
    (typed : All2 (fun c x => ∀ v, x = some v → v.Of c ∧ v.Fits env.zone) (columnsOf crs 20) row)
    (restored : All2 (Restored env.ff) (columnsOf crs 20) row) :
    ∃ lines, fromDataFile env (spreadArgs (spreadPages ls).flatten) [] = .ok () lines ∧ All2 (Printed env.ff (b! "shop") (b! "t")) lines [row] := by
  have hd := spread_dictionary h
  rw [hc] at hd
  obtain ⟨lines, q1, q2⟩ := C57_command_partial env (spreadArgs (spreadPages ls).flatten) _ spreadData _ _ _ _ ⟨b! "shop/t", 20, 5⟩ ⟨20, 30, b! "GEN_CLUST_INDEX", 0, 1⟩
    (spreadLayout crs) spreadDefs false [row] rfl rfl hd (by decide) rfl
    (.generated (r := ⟨20, 30, b! "GEN_CLUST_INDEX", 0, 1⟩) (by decide) (by decide))
    (pages_written env 30 _ (spreadLayout crs) spreadDefs _ false [row] names bits desc spread_fits (by decide) (.cons stores .nil)
      (by intro x hx; cases List.mem_singleton.mp hx; exact typed))
    (by show false = true ↔ b! "RecoveryStruct" = b! "RecoveryData"; decide) (spread_usual _)
    ⟨⟨20, 30, b! "GEN_CLUST_INDEX", 0, 1⟩, by decide, by decide, .inl ⟨by decide, by decide⟩⟩ (pages_marked 30 spreadDefs _ false spread_fits)
    (by intro _ _ _; decide) (by
      intro d hd hc
      rw [show isCompact d = true from pages_compact 30 spreadDefs _ false spread_fits d hd] at hc
      cases hc) (by intro x hx; cases List.mem_singleton.mp hx; exact restored)
    (show 96 ∉ b! "shop" by decide) (show 96 ∉ b! "t" by decide) []
  exact ⟨lines, q1, q2⟩

theorem denotes_int {ff : FloatFmt} {v : SqlVal} {i j : Int} (h1 : Denotes ff v (.int i)) (h2 : Denotes ff v (.int j)) : i = j := by
  cases v with
  | bytes x =>
    have a1 : intVal x = some i := h1.1
    have a2 : intVal x = some j := h2.1
    rw [a1] at a2
    injection a2
  | null => exact h1.elim
  | bits m => exact h1.elim

/-- **C118 is false:** the row (1, 1) is printed as (-2147483647, 2147483649) if the page with the column `b` comes before that with the column `a`. -/
theorem C118_false : ¬ C118_statement := by
  intro h
  have h1 : Spread (spreadLeaves 1) := .inl rfl
  have h2 : Spread (spreadLeaves 1).reverse := .inr (.inl rfl)
  obtain ⟨lines, e1, p1⟩ := spread_printed testEnv h1 [spreadA, spreadB, spreadC] rfl [some (.uint 4 1), some (.int 4 1)] (by decide) (by decide) (by decide)
    (.cons ⟨3, rfl, rfl⟩ (.cons ⟨4, rfl, rfl⟩ .nil))
    (.cons (by rintro v ⟨⟩; exact ⟨⟨by decide, by decide, by decide, by decide, by decide⟩, by decide, by decide⟩)
      (.cons (by rintro v ⟨⟩; exact ⟨⟨by decide, by decide, by decide, by decide, by decide⟩, by decide, by decide, by decide⟩) .nil)) (.cons ⟨nofun, trivial⟩ (.cons ⟨trivial, trivial⟩ .nil))
  obtain ⟨lines', e2, p2⟩ := spread_printed testEnv h2 [spreadB, spreadC, spreadA] rfl [some (.int 4 (-2147483647)), some (.uint 4 2147483649)]
    (by decide) (by decide) (by decide) (.cons ⟨3, rfl, rfl⟩ (.cons ⟨4, rfl, rfl⟩ .nil))
    (.cons (by rintro v ⟨⟩; exact ⟨⟨by decide, by decide, by decide, by decide, by decide⟩, by decide, by decide, by decide⟩)
      (.cons (by rintro v ⟨⟩; exact ⟨⟨by decide, by decide, by decide, by decide, by decide⟩, by decide, by decide⟩) .nil)) (.cons ⟨trivial, trivial⟩ (.cons ⟨nofun, trivial⟩ .nil))
  have := h testEnv (spreadArgs []) _ _ _ _ _ _ ⟨b! "shop/t", 20, 5⟩ (spread_pages h1) (spread_perm _) (spread_roots h1 h2) (spread_rows h1)
    ⟨by decide, by decide, by decide⟩ (spread_dictionary h1) (spread_usual _) (by decide) rfl []
  have e : lines = lines' := by
    have e3 := e1.symm.trans (this.trans e2)
    injection e3
  subst e
  cases p1 with
  | cons q1 _ =>
    cases p2 with
    | cons q2 _ =>
      obtain ⟨vs, v1, d1⟩ := q1
      obtain ⟨vs', v2, d2⟩ := q2
      rw [v1] at v2
      cases v2
      cases d1 with
      | cons d1 _ =>
        cases d2 with
        | cons d2 _ =>
          exact absurd (denotes_int (i := 1) (j := -2147483647) d1 d2) (by decide)

end Verif.Props
