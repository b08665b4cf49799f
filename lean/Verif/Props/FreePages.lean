import Verif.Props.PageOrderRows
import Verif.Props.OtherPages
/-!
# C117: pages of a data file that are free

When two pages of a tree are merged, the one that is given up is marked as free in the extent descriptors of the file and otherwise left as it was.  The tool
does not read the extent descriptors, so it prints the rows of free pages as well.
-/

namespace Verif.Props
open Verif Spec

/-! ## Free pages -/

/-- Is the page with this number free?  Each 16384th page has an array of descriptors of extents (of 64 pages) from byte 150 on; byte 24 of a descriptor, which
has 40 bytes, begins a bitmap with two bits for each page, the first of which is set if the page is free. -/
def pageFree (content : Bytes) (n : Nat) : Bool :=
  (numAt content (n / 16384 * (16384 * 16384) + 150 + 40 * (n % 16384 / 64) + 24 + n % 64 / 4) 1).testBit (2 * (n % 4))

/-- The page holds these rows. -/
def PageRows (cols l : List Column) (defs : List ColDef) (d : Bytes) (rs : List (List (Option TVal))) : Prop :=
  ∃ cellss, PageHolds defs false d cellss ∧ All2 (fun cells row => All2 (Stores l cells) cols row) cellss rs

/-- the rows of the pages, in the order of the file, each with whether its page is free -/
def rowsOfPages (content : Bytes) (ds : List Bytes) (rss : List (List (List (Option TVal)))) : List (Bool × List (Option TVal)) :=
  (ds.zip rss).flatMap fun p => p.2.map fun row => (pageFree content (pageNumber p.1), row)

/-- the rows of the pages that are in use -/
def usedRows (content : Bytes) (ds : List Bytes) (rss : List (List (List (Option TVal)))) : List (List (Option TVal)) :=
  ((rowsOfPages content ds rss).filter fun x => !x.1).map (·.2)

/-- **C117**, as stated: the output of the data command, executed on an empty table, gives the rows of the pages that are in use. -/
def C117_statement : Prop :=
  ∀ (env : Env) (a : FromData) (sys ibd : Bytes) (trs : List TableRow) (crs : List ColumnRow) (irs : List IndexRow) (frs : List FieldRow)
    (t : TableRow) (r : IndexRow) (l : List Column) (defs : List ColDef) (rss : List (List (List (Option TVal))))
    (sv : Server) (same : List Orig → List Orig → Bool),
    PrintableFile env a sys ibd trs crs irs frs t r l defs false rss.flatten →
    TableFile env ibd r.id (columnsOf crs t.id) l defs false rss.flatten → a.tableFile = .ok ibd →
    All2 (PageRows (columnsOf crs t.id) l defs) (leafPages ibd r.id false) rss →
    (∀ row ∈ rss.flatten, ∀ x ∈ row, ReadsNumber sv env.ff x) →
    (∀ x, same x x = true) → (∀ x y, same x y = same y x) → (∀ x y z, same x y = true → same y z = true → same x z = true) →
    ((usedRows ibd (leafPages ibd r.id false) rss).map (sqlRow env.ff)).Pairwise (fun r r' => same r r' = false) →
    ∃ lines after, fromDataFile env a [] = .ok () lines ∧ execScript sv (columnsOf crs t.id) same a.db a.table (stdout lines) [] = some after ∧
      after.Perm ((usedRows ibd (leafPages ibd r.id false) rss).map (sqlRow env.ff))

/-! ## The rows that remain -/

theorem latest_split {same : List Orig → List Orig → Bool} {rows : List (List Orig)} {r : List Orig} (h : r ∈ latest same rows) :
    ∃ n o, rows = n ++ r :: o ∧ o.any (same r) = false := by
  induction rows with
  | nil => cases h
  | cons x rows ih =>
    rw [latest] at h
    by_cases hx : rows.any (same x) = true
    · rw [if_pos hx] at h
      obtain ⟨n, o, rfl, h2⟩ := ih h
      exact ⟨x :: n, o, rfl, h2⟩
    · rw [if_neg hx] at h
      rcases List.mem_cons.mp h with rfl | h
      · exact ⟨[], rows, rfl, by simpa using hx⟩
      · obtain ⟨n, o, rfl, h2⟩ := ih h
        exact ⟨x :: n, o, rfl, h2⟩

theorem latest_last {same : List Orig → List Orig → Bool} (n o : List (List Orig)) (r : List Orig) (h : o.any (same r) = false) :
    r ∈ latest same (n ++ r :: o) := by
  induction n with
  | nil =>
    rw [List.nil_append, latest, if_neg (by rw [h]; decide)]
    exact List.mem_cons_self
  | cons x n ih =>
    rw [List.cons_append, latest]
    split
    · exact ih
    · exact List.mem_cons_of_mem _ ih

theorem latest_subset {same : List Orig → List Orig → Bool} {rows : List (List Orig)} {r : List Orig} (h : r ∈ latest same rows) : r ∈ rows := by
  obtain ⟨n, o, rfl, _⟩ := latest_split h
  simp

theorem latest_apart {same : List Orig → List Orig → Bool} (rows : List (List Orig)) : (latest same rows).Pairwise fun r r' => same r r' = false := by
  induction rows with
  | nil => exact .nil
  | cons x rows ih =>
    rw [latest]
    by_cases hx : rows.any (same x) = true
    · rw [if_pos hx]; exact ih
    · rw [if_neg hx]
      refine .cons (fun y hy => ?_) ih
      by_contra hc
      exact hx (List.any_eq_true.mpr ⟨y, latest_subset hy, by simpa using hc⟩)

theorem latest_covers {same : List Orig → List Orig → Bool} (hrefl : ∀ x, same x x = true) (htrans : ∀ x y z, same x y = true → same y z = true → same x z = true)
    (rows : List (List Orig)) : ∀ u ∈ rows, ∃ r ∈ latest same rows, same u r = true := by
  induction rows with
  | nil => exact nofun
  | cons x rows ih =>
    intro u hu
    rw [latest]
    by_cases hx : rows.any (same x) = true
    · rw [if_pos hx]
      rcases List.mem_cons.mp hu with rfl | hu
      · obtain ⟨y, hy, hxy⟩ := List.any_eq_true.mp hx
        obtain ⟨r, hr, hyr⟩ := ih y hy
        exact ⟨r, hr, htrans _ _ _ hxy hyr⟩
      · exact ih u hu
    · rw [if_neg hx]
      rcases List.mem_cons.mp hu with rfl | hu
      · exact ⟨u, List.mem_cons_self, hrefl u⟩
      · obtain ⟨r, hr, h⟩ := ih u hu
        exact ⟨r, List.mem_cons_of_mem _ hr, h⟩

theorem apart_nodup {same : List Orig → List Orig → Bool} (hrefl : ∀ x, same x x = true) {rows : List (List Orig)}
    (h : rows.Pairwise fun r r' => same r r' = false) : rows.Nodup :=
  h.imp fun hne he => by rw [he, hrefl] at hne; cases hne

theorem rowsOfPages_rows {content : Bytes} {P : Bytes → List (List (Option TVal)) → Prop} {ds : List Bytes} {rss : List (List (List (Option TVal)))}
    (h : All2 P ds rss) : (rowsOfPages content ds rss).map (·.2) = rss.flatten := by
  induction h with
  | nil => rfl
  | @cons d rs ds rss _ _ ih =>
    rw [rowsOfPages, List.zip_cons_cons, List.flatMap_cons, List.map_append, List.map_map, List.flatten_cons, ← ih]
    congr 1
    exact List.map_id _

/-- Which rows remain, for any rows that are marked as being on free pages or not. -/
theorem remaining {same : List Orig → List Orig → Bool} (hrefl : ∀ x, same x x = true) (hsym : ∀ x y, same x y = same y x)
    (htrans : ∀ x y z, same x y = true → same y z = true → same x z = true) (f : List (Option TVal) → List Orig) (tagged : List (Bool × List (Option TVal)))
    (hd : (((tagged.filter fun x => !x.1).map (·.2)).map f).Pairwise fun r r' => same r r' = false) :
    (latest same ((tagged.map (·.2)).map f)).Perm (((tagged.filter fun x => !x.1).map (·.2)).map f) ↔
      ∀ before row after, tagged = before ++ (true, row) :: after → (∃ x ∈ after, same (f row) (f x.2) = true) ∨
        ∃ x ∈ tagged, x.1 = false ∧ f x.2 = f row := by
  have hmem : ∀ y, y ∈ ((tagged.filter fun x => !x.1).map (·.2)).map f ↔ ∃ x ∈ tagged, x.1 = false ∧ f x.2 = y := by
    intro y
    simp only [List.mem_map, List.mem_filter, Bool.not_eq_true']
    constructor
    · rintro ⟨_, ⟨x, ⟨h1, h2⟩, rfl⟩, rfl⟩
      exact ⟨x, h1, h2, rfl⟩
    · rintro ⟨x, h1, h2, rfl⟩
      exact ⟨x.2, ⟨x, ⟨h1, h2⟩, rfl⟩, rfl⟩
  constructor
  · intro hp before row after ht
    by_cases hl : ∃ x ∈ after, same (f row) (f x.2) = true
    · exact .inl hl
    · right
      rw [← hmem, ← hp.mem_iff, ht, List.map_append, List.map_append, List.map_cons, List.map_cons]
      refine latest_last _ _ _ ?_
      rw [List.any_eq_false]
      intro y hy hs
      obtain ⟨z, hz, rfl⟩ := List.mem_map.mp hy
      obtain ⟨x, hx, rfl⟩ := List.mem_map.mp hz
      exact hl ⟨x, hx, hs⟩
  · intro hc
    have hin : ∀ r ∈ latest same ((tagged.map (·.2)).map f), r ∈ ((tagged.filter fun x => !x.1).map (·.2)).map f := by
      intro r hr
      rw [hmem]
      obtain ⟨n, o, h1, h2⟩ := latest_split hr
      rw [List.map_map] at h1
      obtain ⟨n', rest, ht, hn, ho⟩ := List.map_eq_append_iff.mp h1
      obtain ⟨x, o', rfl, hx, ho'⟩ := List.map_eq_cons_iff.mp ho
      obtain ⟨b, row⟩ := x
      cases b with
      | false => exact ⟨(false, row), by rw [ht]; simp, rfl, hx⟩
      | true =>
        rcases hc n' row o' ht with ⟨y, hy, hs⟩ | ⟨x, hx1, hx2, hx3⟩
        · exfalso
          rw [List.any_eq_false] at h2
          refine h2 (f y.2) ?_ ?_
          · rw [← ho']; exact List.mem_map.mpr ⟨y, hy, rfl⟩
          · rw [← hx]; exact hs
        · exact ⟨x, hx1, hx2, hx3.trans hx⟩
    rw [List.perm_ext_iff_of_nodup (apart_nodup hrefl (latest_apart _)) (apart_nodup hrefl hd)]
    intro u
    refine ⟨hin u, fun hu => ?_⟩
    obtain ⟨x, hx, _, hxu⟩ := (hmem u).mp hu
    obtain ⟨r, hr, hs⟩ := latest_covers hrefl htrans ((tagged.map (·.2)).map f) u (by
      rw [← hxu, List.map_map]
      exact List.mem_map.mpr ⟨x, hx, rfl⟩)
    have hsymm : Std.Symm fun r r' : List Orig => same r r' = false := ⟨fun x y h => by rw [hsym]; exact h⟩
    by_cases he : u = r
    · rw [he]; exact hr
    · have := hd.forall hu (hin r hr) he
      rw [this] at hs
      cases hs

/-! ## The command -/

/-- **Exactly:** the output gives the rows of the pages in use if and only if each row of a free page is followed by a row with its key, or is the same as a row in
use. -/
theorem C117_iff (env : Env) (a : FromData) (sys ibd : Bytes) (trs : List TableRow) (crs : List ColumnRow) (irs : List IndexRow) (frs : List FieldRow)
    (t : TableRow) (r : IndexRow) (l : List Column) (defs : List ColDef) (rss : List (List (List (Option TVal))))
    (sv : Server) (same : List Orig → List Orig → Bool)
    (hp : PrintableFile env a sys ibd trs crs irs frs t r l defs false rss.flatten)
    (ht : TableFile env ibd r.id (columnsOf crs t.id) l defs false rss.flatten) (hf : a.tableFile = .ok ibd)
    (hpg : All2 (PageRows (columnsOf crs t.id) l defs) (leafPages ibd r.id false) rss)
    (hr : ∀ row ∈ rss.flatten, ∀ x ∈ row, ReadsNumber sv env.ff x)
    (hrefl : ∀ x, same x x = true) (hsym : ∀ x y, same x y = same y x) (htrans : ∀ x y z, same x y = true → same y z = true → same x z = true)
    (hd : ((usedRows ibd (leafPages ibd r.id false) rss).map (sqlRow env.ff)).Pairwise (fun r r' => same r r' = false)) :
    (∃ lines after, fromDataFile env a [] = .ok () lines ∧ execScript sv (columnsOf crs t.id) same a.db a.table (stdout lines) [] = some after ∧
      after.Perm ((usedRows ibd (leafPages ibd r.id false) rss).map (sqlRow env.ff))) ↔
    ∀ before row after, rowsOfPages ibd (leafPages ibd r.id false) rss = before ++ (true, row) :: after →
      (∃ x ∈ after, same (sqlRow env.ff row) (sqlRow env.ff x.2) = true) ∨
        ∃ x ∈ rowsOfPages ibd (leafPages ibd r.id false) rss, x.1 = false ∧ sqlRow env.ff x.2 = sqlRow env.ff row := by
  obtain ⟨lines, h1, h2⟩ := C73_exact env a sys ibd trs crs irs frs t r l defs false rss.flatten sv same [] hp ht hf hr
  rw [List.filter_nil, List.nil_append, ← rowsOfPages_rows (content := ibd) hpg] at h2
  rw [← remaining hrefl hsym htrans (sqlRow env.ff) _ hd]
  constructor
  · rintro ⟨lines', after, h3, h4, h5⟩
    rw [h1] at h3
    cases h3
    rw [h2] at h4
    cases h4
    exact h5
  · exact fun h => ⟨lines, _, h1, h2, h⟩

/-- **C117, in part:** true if the rows of the free pages are copies of rows in use, as they are right after a merge; in particular if no page is free.
(Missing: files in which a row has been changed or deleted after it had been moved, see `C117_iff`.) -/
theorem C117_copies_partial (env : Env) (a : FromData) (sys ibd : Bytes) (trs : List TableRow) (crs : List ColumnRow) (irs : List IndexRow) (frs : List FieldRow)
    (t : TableRow) (r : IndexRow) (l : List Column) (defs : List ColDef) (rss : List (List (List (Option TVal))))
    (sv : Server) (same : List Orig → List Orig → Bool)
    (hp : PrintableFile env a sys ibd trs crs irs frs t r l defs false rss.flatten)
    (ht : TableFile env ibd r.id (columnsOf crs t.id) l defs false rss.flatten) (hf : a.tableFile = .ok ibd)
    (hpg : All2 (PageRows (columnsOf crs t.id) l defs) (leafPages ibd r.id false) rss)
    (hr : ∀ row ∈ rss.flatten, ∀ x ∈ row, ReadsNumber sv env.ff x)
    (hrefl : ∀ x, same x x = true) (hsym : ∀ x y, same x y = same y x) (htrans : ∀ x y z, same x y = true → same y z = true → same x z = true)
    (hd : ((usedRows ibd (leafPages ibd r.id false) rss).map (sqlRow env.ff)).Pairwise (fun r r' => same r r' = false))
    (hcopy : ∀ x ∈ rowsOfPages ibd (leafPages ibd r.id false) rss, x.1 = true → x.2 ∈ usedRows ibd (leafPages ibd r.id false) rss) :
    ∃ lines after, fromDataFile env a [] = .ok () lines ∧ execScript sv (columnsOf crs t.id) same a.db a.table (stdout lines) [] = some after ∧
      after.Perm ((usedRows ibd (leafPages ibd r.id false) rss).map (sqlRow env.ff)) := by
  rw [C117_iff env a sys ibd trs crs irs frs t r l defs rss sv same hp ht hf hpg hr hrefl hsym htrans hd]
  intro before row after h
  right
  have := hcopy (true, row) (by rw [h]; simp) rfl
  obtain ⟨x, hx, hxr⟩ := List.mem_map.mp this
  obtain ⟨hx, hb⟩ := List.mem_filter.mp hx
  exact ⟨x, hx, by simpa using hb, by rw [hxr]⟩

/-- **What is done with free pages does not depend on their being free:** files that differ in nothing but pages that are not index pages, such as those with
the extent descriptors, give the same output. -/
theorem C117_ignored (env : Env) (a : FromData) (c c' : Bytes) (hn : pageCount c = pageCount c')
    (h : ∀ k < pageCount c, pageImage c k = pageImage c' k ∨ (pageNumber (pageImage c k) = pageNumber (pageImage c' k) ∧
      field (pageImage c k) FIL_PAGE_TYPE ≠ FIL_PAGE_INDEX ∧ field (pageImage c' k) FIL_PAGE_TYPE ≠ FIL_PAGE_INDEX)) :
    runOn env a c = runOn env a c' :=
  C82_in_place env a c c' hn fun k hk => (h k hk).imp _root_.id fun h => ⟨h.1, fun hs => h.2.1 hs.1, fun hs => h.2.2 hs.1⟩

/-! ## A file with a free page -/

/-- the first page of a file, with the bits of the pages 4 to 7 -/
def spaceTop (bits : UInt8) : Bytes := zeros 24 ++ [0, 8] ++ zeros 148 ++ [170, bits]
def spacePage (bits : UInt8) : Bytes := fill (spaceTop bits)
/-- The pages: those of `twoLeaves`, or those after both rows have been moved to the first page. -/
def spaceLeaves (m : Bool) : List Leaf :=
  if m then [([shopCells 1 (some (b! "ann")), shopCells 2 none], []), ([shopCells 2 none], [])] else twoLeaves

def spacePages (m : Bool) (bits : UInt8) : List Bytes := spacePage bits :: writeLeaves 30 shopDefs 3 (spaceLeaves m)
def spaceFile (m : Bool) (bits : UInt8) : Bytes := (spacePages m bits).flatten

theorem spacePage_length (bits : UInt8) : (spacePage bits).length = 16384 := by
  unfold spacePage fill
  rw [List.length_append, List.length_replicate]
  have : (spaceTop bits).length = 176 := rfl
  omega

theorem numAt_left (p q : Bytes) (o w : Nat) (h : o + w ≤ p.length) : numAt (p ++ q) o w = numAt p o w := by
  unfold numAt
  rw [List.drop_append_of_le_length (by omega), List.take_append_of_le_length (by rw [List.length_drop]; omega)]

theorem spacePage_num (bits : UInt8) (o w : Nat) (h : o + w ≤ 176) : numAt (spacePage bits) o w = numAt (spaceTop bits) o w :=
  numAt_left _ _ _ _ h

theorem space_fit (m : Bool) : Fits 30 shopDefs (spaceLeaves m) := by
  cases m
  · exact twoLeaves_fit
  · exact ⟨by decide, by decide, by decide⟩

theorem space_leaves (m : Bool) : All2 (LeafPage 30 shopDefs) (writeLeaves 30 shopDefs 3 (spaceLeaves m)) (spaceLeaves m) ∧
    (writeLeaves 30 shopDefs 3 (spaceLeaves m)).map pageNumber = [3, 4] :=
  ⟨(writeLeaves_pages 30 shopDefs 3 (spaceLeaves m) (space_fit m).index (space_fit m).count (space_fit m).size).1, by
    rw [(writeLeaves_pages 30 shopDefs 3 (spaceLeaves m) (space_fit m).index (space_fit m).count (space_fit m).size).2]
    cases m <;> rfl⟩

theorem space_pages (m : Bool) (bits : UInt8) : Pages (spacePages m bits) where
  whole := by
    intro p hp
    rcases List.mem_cons.mp hp with rfl | hp
    · exact spacePage_length bits
    · exact leaves_length (space_leaves m).1 p hp
  numbers := by
    have : (spacePages m bits).map pageNumber = [0, 3, 4] := by
      unfold spacePages
      rw [List.map_cons, (space_leaves m).2, pageNumber, spacePage_num _ _ _ (by decide)]
      rfl
    rw [this]
    decide

theorem space_type (bits : UInt8) : field (spacePage bits) FIL_PAGE_TYPE = 8 := by
  show numAt _ 24 2 = 8
  rw [spacePage_num _ _ _ (by decide)]
  rfl

theorem space_leafPages (m : Bool) (bits : UInt8) : leafPages (spaceFile m bits) 30 false = writeLeaves 30 shopDefs 3 (spaceLeaves m) := by
  unfold spaceFile
  rw [leafPages_flatten _ (space_pages m bits).whole (space_pages m bits).numbers, spacePages, List.filter_cons_of_neg, List.filter_eq_self]
  · intro d hd
    obtain ⟨p, _, hp⟩ := all2_left (space_leaves m).1 d hd
    rw [leaf_isLeaf hp]
    rfl
  · unfold isLeaf
    rw [space_type]
    simp [FIL_PAGE_INDEX]

theorem space_free (m : Bool) (bits : UInt8) (n : Nat) (hn : n = 3 ∨ n = 4) : pageFree (spaceFile m bits) n = if n = 4 then bits.toNat.testBit 0 else false := by
  unfold pageFree spaceFile spacePages
  rw [List.flatten_cons]
  rcases hn with rfl | rfl
  · rw [numAt_left _ _ _ _ (by rw [spacePage_length]; decide), spacePage_num _ _ _ (by decide),
      show numAt (spaceTop bits) (3 / 16384 * (16384 * 16384) + 150 + 40 * (3 % 16384 / 64) + 24 + 3 % 64 / 4) 1 = 170 from rfl, if_neg (by decide)]
    decide
  · rw [numAt_left _ _ _ _ (by rw [spacePage_length]; decide), spacePage_num _ _ _ (by decide), if_pos rfl]
    have : numAt (spaceTop bits) (4 / 16384 * (16384 * 16384) + 150 + 40 * (4 % 16384 / 64) + 24 + 4 % 64 / 4) 1 = bits.toNat := by
      show beVal [bits] = _
      simp [beVal]
    rw [this]

def spaceRows (m : Bool) : List (List (List (Option TVal))) :=
  [[some (.int 4 1), some (.varchar (b! "ann"))] :: if m then [[some (.int 4 2), none]] else [], [[some (.int 4 2), none]]]

set_option maxRecDepth 4000 in
theorem space_rows (m : Bool) (bits : UInt8) : All2 (PageRows (columnsOf shopColumns 20) (shopLayout 20) shopDefs) (leafPages (spaceFile m bits) 30 false) (spaceRows m) := by
  rw [space_leafPages]
  have h := (space_leaves m).1
  generalize writeLeaves 30 shopDefs 3 (spaceLeaves m) = ds at h
  cases m
  · replace h : All2 _ ds twoLeaves := h
    cases h with
    | cons h1 h =>
      cases h with
      | cons h2 h =>
        cases h
        exact .cons ⟨_, leaf_holds h1 false (by decide) (by rw [leaf_isLeaf h1]; rfl), .cons (shopData_stores 1 (some (b! "ann"))) .nil⟩
          (.cons ⟨_, leaf_holds h2 false (by decide) (by rw [leaf_isLeaf h2]; rfl), .cons (shopData_stores 2 none) .nil⟩ .nil)
  · replace h : All2 _ ds [([shopCells 1 (some (b! "ann")), shopCells 2 none], []), ([shopCells 2 none], [])] := h
    cases h with
    | cons h1 h =>
      cases h with
      | cons h2 h =>
        cases h
        exact .cons ⟨_, leaf_holds h1 false (by decide) (by rw [leaf_isLeaf h1]; rfl),
            .cons (shopData_stores 1 (some (b! "ann"))) (.cons (shopData_stores 2 none) .nil)⟩
          (.cons ⟨_, leaf_holds h2 false (by decide) (by rw [leaf_isLeaf h2]; rfl), .cons (shopData_stores 2 none) .nil⟩ .nil)

theorem space_shop (m : Bool) : ∀ row ∈ (spaceRows m).flatten, row ∈ shopRows (b! "ann") false := by
  cases m <;> simp [spaceRows, shopRows]

theorem space_tagged (m : Bool) (bits : UInt8) : rowsOfPages (spaceFile m bits) (leafPages (spaceFile m bits) 30 false) (spaceRows m) =
    (false, [some (.int 4 1), some (.varchar (b! "ann"))]) :: (if m then [(false, [some (.int 4 2), none])] else []) ++
      [(bits.toNat.testBit 0, [some (.int 4 2), none])] := by
  have h3 := space_free m bits 3 (.inl rfl)
  have h4 := space_free m bits 4 (.inr rfl)
  rw [space_leafPages]
  have hn := (space_leaves m).2
  generalize spaceFile m bits = c at *
  generalize writeLeaves 30 shopDefs 3 (spaceLeaves m) = ds at *
  obtain ⟨d, ds, rfl, e1, hn⟩ := List.map_eq_cons_iff.mp hn
  obtain ⟨d', ds, rfl, e2, hn⟩ := List.map_eq_cons_iff.mp hn
  obtain rfl := List.map_eq_nil_iff.mp hn
  cases m <;> simp [rowsOfPages, spaceRows, e1, e2, h3, h4]

theorem space_table (env : Env) (m : Bool) (bits : UInt8) : TableFile env (spaceFile m bits) 30 (columnsOf shopColumns 20) (shopLayout 20) shopDefs false (spaceRows m).flatten := by
  have hf := shopData_file env (name := b! "ann") (.inl rfl) false
  exact ⟨hf.names, hf.bits, hf.desc, ⟨_, rfl, space_rows m bits⟩, fun row h => hf.typed row (space_shop m row h)⟩

theorem space_printable (env : Env) (m : Bool) (bits : UInt8) : PrintableFile env (pagesArgs (spaceFile m bits)) (namedFile (b! "shop/t")) (spaceFile m bits)
    (namedTables (b! "shop/t")) shopColumns (shopIndexes idKey) (shopFields idKey) ⟨b! "shop/t", 20, 5⟩ ⟨20, 30, b! "PRIMARY", 1, 3⟩ (shopLayout 20)
    shopDefs false (spaceRows m).flatten where
  sysFile := rfl
  dict := named_dictionary (b! "shop/t") (b! "shop") (b! "t") rfl (by decide) (by decide) (by decide) (by decide)
  table := by decide
  name := rfl
  layout := shop_layout ⟨b! "shop/t", 20, 5⟩ (by decide)
  op := by show false = true ↔ b! "RecoveryStruct" = b! "RecoveryData"; decide
  keys := named_keys _
  handled := shop_handled ⟨b! "shop/t", 20, 5⟩ (by decide)
  mark := by
    refine ⟨?_, nofun⟩
    intro d hd ht _
    unfold filePages spaceFile at hd
    rw [images_flatten _ (space_pages m bits).whole (space_pages m bits).numbers] at hd
    rcases List.mem_cons.mp hd with rfl | hd
    · rw [space_type] at ht
      cases ht
    · obtain ⟨p, _, n, hp⟩ := all2_left (space_leaves m).1 d hd
      rw [hp.index, hp.trx]
      simp
  compact := by intro _ _ _; decide
  redundant := by
    intro d hd hc
    rw [space_leafPages] at hd
    obtain ⟨p, _, n, hp⟩ := all2_left (space_leaves m).1 d hd
    rw [show isCompact d = true from hp.fmt] at hc
    cases hc
  values := fun row h => shop_restored env.ff row (space_shop m row h)
  db := by show 96 ∉ b! "shop"; decide
  tab := by show 96 ∉ b! "t"; decide

theorem sameFirst_refl : ∀ x, sameFirst x x = true := fun x => by simp [sameFirst]
theorem sameFirst_symm : ∀ x y, sameFirst x y = sameFirst y x := fun x y => by
  unfold sameFirst
  rw [Bool.eq_iff_iff, beq_iff_eq, beq_iff_eq]
  exact eq_comm
theorem sameFirst_trans : ∀ x y z, sameFirst x y = true → sameFirst y z = true → sameFirst x z = true := fun x y z => by
  unfold sameFirst
  rw [beq_iff_eq, beq_iff_eq, beq_iff_eq]
  exact Eq.trans

/-- **C117 is false:** the row 2, which is on a free page only, is printed. -/
theorem C117_false : ¬ C117_statement := by
  intro h
  have hu : usedRows (spaceFile false 171) (leafPages (spaceFile false 171) 30 false) (spaceRows false) = [[some (.int 4 1), some (.varchar (b! "ann"))]] := by
    unfold usedRows
    rw [space_tagged]
    rfl
  have hd : ((usedRows (spaceFile false 171) (leafPages (spaceFile false 171) 30 false) (spaceRows false)).map (sqlRow testEnv.ff)).Pairwise (fun r r' => sameFirst r r' = false) := by
    rw [hu]
    exact List.pairwise_singleton _ _
  have h1 := h testEnv (pagesArgs (spaceFile false 171)) _ _ _ _ _ _ _ ⟨20, 30, b! "PRIMARY", 1, 3⟩ _ _ (spaceRows false) anyServer sameFirst (space_printable testEnv false 171)
    (space_table testEnv false 171) rfl (space_rows false 171) (fun row h => shop_numbers _ _ (b! "ann") false row (space_shop _ row h)) sameFirst_refl sameFirst_symm sameFirst_trans hd
  have h2 := (C117_iff testEnv (pagesArgs (spaceFile false 171)) _ _ _ _ _ _ _ ⟨20, 30, b! "PRIMARY", 1, 3⟩ _ _ (spaceRows false) anyServer sameFirst
    (space_printable testEnv false 171)
    (space_table testEnv false 171) rfl (space_rows false 171) (fun row h => shop_numbers _ _ (b! "ann") false row (space_shop _ row h)) sameFirst_refl sameFirst_symm sameFirst_trans hd).mp h1
    [_] [some (.int 4 2), none] [] (space_tagged false 171)
  rcases h2 with ⟨_, h, _⟩ | ⟨x, hx, hx1, hx2⟩
  · cases h
  · rw [space_tagged] at hx
    rcases List.mem_cons.mp hx with rfl | hx
    · revert hx2
      show ¬ ([Orig.int 1, .text (b! "ann")] = [.int 2, .null])
      decide
    · cases List.mem_singleton.mp hx
      cases hx1

/-- The hypotheses of `C117_copies_partial`: the pages have been merged, so that the row on the free page is a copy of one on the other page. -/
example (env : Env) (sv : Server) : ∃ lines after, fromDataFile env (pagesArgs (spaceFile true 171)) [] = .ok () lines ∧
    execScript sv (columnsOf shopColumns 20) sameFirst (b! "shop") (b! "t") (stdout lines) [] = some after ∧
      after.Perm ((usedRows (spaceFile true 171) (leafPages (spaceFile true 171) 30 false) (spaceRows true)).map (sqlRow env.ff)) := by
  refine C117_copies_partial env (pagesArgs (spaceFile true 171)) _ _ _ _ _ _ _ ⟨20, 30, b! "PRIMARY", 1, 3⟩ _ _ (spaceRows true) sv sameFirst (space_printable env true 171)
    (space_table env true 171) rfl (space_rows true 171) (fun row h => shop_numbers _ _ (b! "ann") false row (space_shop _ row h)) sameFirst_refl sameFirst_symm sameFirst_trans ?_ ?_
  · unfold usedRows
    rw [space_tagged]
    show [[Orig.int 1, .text (b! "ann")], [.int 2, .null]].Pairwise _
    decide
  · intro x hx hx1
    rw [space_tagged] at hx
    unfold usedRows
    rw [space_tagged]
    show x.2 ∈ [[some (.int 4 1), some (.varchar (b! "ann"))], [some (.int 4 2), none]]
    rcases List.mem_cons.mp hx with rfl | hx
    · cases hx1
    · rcases List.mem_cons.mp hx with rfl | hx
      · cases hx1
      · cases List.mem_singleton.mp hx
        exact .tail _ (.head _)

end Verif.Props
