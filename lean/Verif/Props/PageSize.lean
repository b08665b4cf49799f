import Verif.Props.DataCut
/-!
# C78: pages of other than 16384 bytes

With `innodb_page_size` set to 4096 or 8192, the pages of a file are so long; the tool reads 16384 bytes as one page all the same.  So it takes
several pages for one.
-/

set_option linter.unusedSimpArgs false

namespace Verif.Props
open Verif Spec

/-! ## Pages that begin with the same bytes -/

section
variable {d e : Bytes} {m : Nat} (he : d.take m = e.take m)
include he

theorem numAt_same {o w : Nat} (h : o + w ≤ m) : numAt e o w = numAt d o w := by
  have key : ∀ x : Bytes, numAt (x.take m) o w = numAt x o w := by
    intro x
    unfold numAt
    rw [List.drop_take, List.take_take, show min w (m - o) = w by omega]
  rw [← key e, ← he, key d]

theorem field_same (f : Nat × Nat) (h : f.1 + f.2 ≤ m) : field e f = field d f := numAt_same he h

theorem isCompact_same (h : 44 ≤ m) : isCompact e = isCompact d := by
  unfold isCompact
  rw [numAt_same he (by omega)]

theorem link_same {o : Nat} (h2 : 2 ≤ o) (h : o ≤ m) : link e o = link d o := numAt_same he (by omega)

theorem follow_same {o : Nat} (c : Bool) (h2 : 2 ≤ o) (h : o ≤ m) : follow e c o = follow d c o := by
  unfold follow
  rw [link_same he h2 h]

theorem compactAt_same {o : Nat} {row : Row} (h : CompactAt d o row) (hm : o + (rowData row).length ≤ m) : CompactAt e o row := by
  obtain ⟨pre, hdr, post, h1, h2, hp, ho⟩ := h
  refine ⟨pre, hdr, post.take (m - (o + (rowData row).length)) ++ e.drop m, h1, h2, ?_, ho⟩
  have : d.take m = pre ++ compactPrefix row hdr ++ rowData row ++ post.take (m - (o + (rowData row).length)) := by
    rw [hp, List.take_append, List.take_of_length_le (by rw [List.length_append, ← ho]; exact hm), List.length_append, ← ho]
  rw [← List.append_assoc, ← this, he, List.take_append_drop]

theorem redundantAt_same {o w : Nat} {row : List OldCell} (h : RedundantAt d o w row) (hm : o + (oldData row).length ≤ m) :
    RedundantAt e o w row := by
  obtain ⟨pre, h3, flag, h2, post, l3, l2, hf, hp, ho⟩ := h
  refine ⟨pre, h3, flag, h2, post.take (m - (o + (oldData row).length)) ++ e.drop m, l3, l2, hf, ?_, ho⟩
  have : d.take m = pre ++ endInfos w 0 row ++ h3 ++ [flag] ++ h2 ++ oldData row ++ post.take (m - (o + (oldData row).length)) := by
    rw [hp, List.take_append, List.take_of_length_le (by rw [List.length_append, ← ho]; exact hm), List.length_append, ← ho]
  rw [← List.append_assoc, ← this, he, List.take_append_drop]

theorem linked_same {c : Bool} {o : Nat} {os : List Nat} (h : Linked d c o os) (h2 : 2 ≤ o) (ho : o ≤ m) (hos : ∀ x ∈ os, x ≤ m) :
    Linked e c o os := by
  induction h with
  | last h => exact .last (by rw [follow_same he c h2 ho]; exact h)
  | @next o os hu _ ih =>
    have e := follow_same he c h2 ho
    rw [← e] at hu hos ih ⊢
    refine .next hu (ih ?_ (hos _ (by simp)) fun x hx => hos x (List.mem_cons_of_mem _ hx))
    have := userAt_bounds hu
    omega

theorem freeList_same {c : Bool} {o : Nat} {os : List Nat} (h : FreeList d c o os) (hos : ∀ x ∈ os, x ≤ m) : FreeList e c o os := by
  induction h with
  | @last o hu h0 =>
    have := userAt_bounds hu
    exact .last hu (by rw [link_same he (by omega) (hos o (by simp))]; exact h0)
  | @next o os hu h0 _ ih =>
    have := userAt_bounds hu
    have ho := hos o (by simp)
    refine .next hu (by rw [link_same he (by omega) ho]; exact h0) ?_
    rw [follow_same he c (by omega) ho]
    exact ih fun x hx => hos x (List.mem_cons_of_mem _ hx)

theorem records_same (h120 : 120 ≤ m) {deleted : Bool} {os : List Nat} (h : Records deleted d os) (hos : ∀ x ∈ os, x ≤ m) :
    Records deleted e os := by
  unfold Records at *
  rw [isCompact_same he (by omega)]
  cases deleted with
  | true =>
    rw [if_pos rfl] at h ⊢
    rw [field_same he _ (show 44 + 2 ≤ m by omega)]
    exact freeList_same he h hos
  | false =>
    rw [if_neg (by decide)] at h ⊢
    have hb : infimumAt (isCompact d) = 99 ∨ infimumAt (isCompact d) = 101 := by cases isCompact d <;> simp [infimumAt]
    exact linked_same he h (by omega) (by omega) hos

theorem holds_same {defs : List ColDef} {deleted : Bool} {cellss : List (List Cell)} (h120 : 120 ≤ m) (hm : m ≤ 16384 - 8)
    (h : HoldsUpTo m defs deleted d cellss) : PageHolds defs deleted e cellss := by
  cases h with
  | @compact os rows hc hr hrows =>
    refine .compact (by rw [isCompact_same he (by omega)]; exact hc) (records_same he h120 hr ?_) ?_
    · intro x hx
      obtain ⟨_, _, h1, h2⟩ := all2_mem hrows x hx
      omega
    · refine all2_imp (fun o cells h => ⟨⟨h.1.1, compactAt_same he h.1.2 h.2⟩, ?_⟩) hrows
      have := h.2
      omega
  | @redundant os rows hc hr hrows =>
    refine .redundant (by rw [isCompact_same he (by omega)]; exact hc) (records_same he h120 hr ?_) ?_
    · intro x hx
      obtain ⟨_, _, ⟨_, h1⟩, h2⟩ := all2_mem hrows x hx
      omega
    · refine all2_imp (fun o r h => ⟨⟨⟨h.1.1.1, redundantAt_same he h.1.1.2.1 h.1.2, h.1.1.2.2⟩, ?_⟩, h.2⟩) hrows
      have := h.1.2
      omega

theorem isLeaf_same (h120 : 120 ≤ m) (cid : Nat) (deleted : Bool) : isLeaf cid deleted e = isLeaf cid deleted d := by
  unfold isLeaf
  rw [field_same he FIL_PAGE_TYPE (by simp only [FIL_PAGE_TYPE]; omega), field_same he PAGE_LEVEL (by simp only [PAGE_LEVEL]; omega),
    field_same he PAGE_INDEX_ID (by simp only [PAGE_INDEX_ID]; omega), field_same he PAGE_FREE (by simp only [PAGE_FREE]; omega)]

end

/-! ## Files with smaller pages -/

/-- A page of `s` bytes holds these rows: it is a leaf page of the index and its records end before its trailer, or it is another page and there
are none.  (`pad` fills the page up to 16384 bytes, for which the format of a page is defined in `Spec`.) -/
def SmallPage (s cid : Nat) (cols l : List Column) (defs : List ColDef) (deleted : Bool) (p : Bytes) (rs : List (List (Option TVal))) : Prop :=
  p.length = s ∧
  if isLeaf cid deleted (pad p) then
    ∃ cellss, HoldsUpTo (s - 8) defs deleted (pad p) cellss ∧ All2 (fun cells row => All2 (Stores l cells) cols row) cellss rs
  else rs = []

/-- A file with pages of `s` bytes, of which `n` make up 16384 bytes.  The pages are listed in groups of `n`; `rsss` has the rows of each page.
The same pages, filled up to 16384 bytes, make up a file whose rows are printed (C57). -/
structure SmallFile (env : Env) (a : FromData) (sys : Bytes) (trs : List TableRow) (crs : List ColumnRow) (irs : List IndexRow)
    (frs : List FieldRow) (t : TableRow) (r : IndexRow) (l : List Column) (defs : List ColDef) (deleted : Bool) (s n : Nat)
    (groups : List (List Bytes)) (rsss : List (List (List (List (Option TVal))))) : Prop where
  size : 128 ≤ s ∧ s * n = 16384
  full : ∀ g ∈ groups, g.length = n
  pages : All2 (All2 (SmallPage s r.id (columnsOf crs t.id) l defs deleted)) groups rsss
  numbers : (groups.flatten.map pageNumber).Nodup
  filled : TableFile env (groups.flatten.map pad).flatten r.id (columnsOf crs t.id) l defs deleted rsss.flatten.flatten
  printable : PrintableFile env a sys (groups.flatten.map pad).flatten trs crs irs frs t r l defs deleted rsss.flatten.flatten
  file : a.tableFile = .ok groups.flatten.flatten

/-- **C78**, as stated: the rows of all pages are printed, whatever the page size. -/
def C78_statement : Prop :=
  ∀ (env : Env) (a : FromData) (sys : Bytes) (trs : List TableRow) (crs : List ColumnRow) (irs : List IndexRow)
    (frs : List FieldRow) (t : TableRow) (r : IndexRow) (l : List Column) (defs : List ColDef) (deleted : Bool) (s n : Nat)
    (groups : List (List Bytes)) (rsss : List (List (List (List (Option TVal))))) (out : Out),
    SmallFile env a sys trs crs irs frs t r l defs deleted s n groups rsss →
    ∃ lines, fromDataFile env a out = .ok () (out ++ lines) ∧ All2 (Printed env.ff a.db a.table) lines rsss.flatten.flatten

theorem sum_const {α : Type} (L : List (List α)) (s : Nat) (h : ∀ x ∈ L, x.length = s) : L.flatten.length = s * L.length := by
  rw [List.length_flatten]
  have : L.map List.length = List.replicate L.length s := by
    rw [List.eq_replicate_iff]
    refine ⟨by simp, ?_⟩
    intro b hb
    obtain ⟨p, hp, rfl⟩ := List.mem_map.mp hb
    exact h p hp
  rw [this, List.sum_replicate_nat, Nat.mul_comm]

theorem heads_sublist {α : Type} (L : List (List α)) (d : α) (h : ∀ x ∈ L, x ≠ []) : (L.map (·.headD d)).Sublist L.flatten := by
  induction L with
  | nil => exact .slnil
  | cons x L ih =>
    obtain ⟨a, x, rfl⟩ := List.exists_cons_of_ne_nil (h x (by simp))
    have := ih fun y hy => h y (List.mem_cons_of_mem _ hy)
    show (a :: L.map (·.headD d)).Sublist (a :: (x ++ L.flatten))
    exact .cons_cons _ (this.trans (List.sublist_append_right _ _))

/-- **C78, exactly.** Of each 16384 bytes exactly the rows of the first page are printed. -/
theorem C78_exact_partial (env : Env) (a : FromData) (sys : Bytes) (trs : List TableRow) (crs : List ColumnRow) (irs : List IndexRow)
    (frs : List FieldRow) (t : TableRow) (r : IndexRow) (l : List Column) (defs : List ColDef) (deleted : Bool) (s n : Nat)
    (groups : List (List Bytes)) (rsss : List (List (List (List (Option TVal))))) (out : Out)
    (h : SmallFile env a sys trs crs irs frs t r l defs deleted s n groups rsss) :
    ∃ lines, fromDataFile env a out = .ok () (out ++ lines) ∧
      All2 (Printed env.ff a.db a.table) lines (rsss.map (·.headD [])).flatten := by
  obtain ⟨⟨hs, hsn⟩, hg, hpages, hnum, hfile, hp, hibd⟩ := h
  have hn0 : 1 ≤ n := by
    rcases Nat.eq_zero_or_pos n with rfl | h
    · simp at hsn
    · exact h
  have hs2 : s ≤ 16384 := by rw [← hsn]; exact Nat.le_mul_of_pos_right _ hn0
  have hlen : ∀ g ∈ groups, ∀ p ∈ g, p.length = s := by
    intro g hgm p hpm
    obtain ⟨rss, _, h⟩ := all2_mem hpages g hgm
    obtain ⟨rs, _, h⟩ := all2_mem h p hpm
    exact h.1
  have hne : ∀ g ∈ groups, g ≠ [] := by
    intro g hgm he
    have := hg g hgm
    rw [he] at this
    simp at this
    omega
  -- the pages as they are read
  have hbig : ∀ d ∈ groups.map List.flatten, d.length = 16384 := by
    intro d hd
    obtain ⟨g, hgm, rfl⟩ := List.mem_map.mp hd
    rw [sum_const g s (hlen g hgm), hg g hgm, hsn]
  have hfirst : ∀ g ∈ groups, (pad (g.headD [])).take (s - 8) = g.flatten.take (s - 8) := by
    intro g hgm
    obtain ⟨p, g, rfl⟩ := List.exists_cons_of_ne_nil (hne g hgm)
    have := hlen _ hgm p (by simp)
    show (p ++ _).take _ = (p ++ g.flatten).take _
    rw [List.take_append_of_le_length (by omega), List.take_append_of_le_length (by omega)]
  have hpn : ∀ g ∈ groups, pageNumber g.flatten = pageNumber (g.headD []) := by
    intro g hgm
    obtain ⟨p, g', rfl⟩ := List.exists_cons_of_ne_nil (hne g hgm)
    have hl := hlen _ hgm p (by simp)
    unfold pageNumber
    rw [numAt_same (hfirst _ hgm) (by omega)]
    exact numAt_pad p 4 4 (by omega)
  have hnd : ((groups.map List.flatten).map pageNumber).Nodup := by
    have e : (groups.map List.flatten).map pageNumber = (groups.map (·.headD [])).map pageNumber := by
      rw [List.map_map, List.map_map]
      exact List.map_congr_left hpn
    rw [e]
    exact ((heads_sublist groups [] hne).map pageNumber).nodup hnum
  have hflat : groups.flatten.flatten = (groups.map List.flatten).flatten := List.flatten_flatten
  -- the filled pages
  have hpadlen : ∀ d ∈ groups.flatten.map pad, d.length = 16384 := by
    intro d hd
    obtain ⟨p, hpm, rfl⟩ := List.mem_map.mp hd
    obtain ⟨g, hgm, hpm⟩ := List.mem_flatten.mp hpm
    exact pad_length _ (by rw [hlen g hgm p hpm]; exact hs2)
  have hpadnd : ((groups.flatten.map pad).map pageNumber).Nodup := by
    have e : (groups.flatten.map pad).map pageNumber = groups.flatten.map pageNumber := by
      rw [List.map_map]
      refine List.map_congr_left fun p hpm => ?_
      obtain ⟨g, hgm, hpm⟩ := List.mem_flatten.mp hpm
      exact numAt_pad p 4 4 (by have := hlen g hgm p hpm; omega)
    rw [e]
    exact hnum
  have hfilledPages : filePages (groups.flatten.map pad).flatten = groups.flatten.map pad := images_flatten _ hpadlen hpadnd
  have hbigPages : filePages groups.flatten.flatten = groups.map List.flatten := by
    rw [hflat]; exact images_flatten _ hbig hnd
  have hhead : ∀ g ∈ groups, pad (g.headD []) ∈ groups.flatten.map pad := by
    intro g hgm
    refine List.mem_map_of_mem (List.mem_flatten.mpr ⟨g, hgm, ?_⟩)
    obtain ⟨p, g', rfl⟩ := List.exists_cons_of_ne_nil (hne g hgm)
    exact List.mem_cons_self
  have hleafs : ∀ d ∈ leafPages groups.flatten.flatten r.id deleted, ∃ e ∈ leafPages (groups.flatten.map pad).flatten r.id deleted,
      e.take (s - 8) = d.take (s - 8) := by
    intro d hd
    rw [hflat, leafPages_flatten _ hbig hnd] at hd
    obtain ⟨hd, hl⟩ := List.mem_filter.mp hd
    obtain ⟨g, hgm, rfl⟩ := List.mem_map.mp hd
    refine ⟨pad (g.headD []), ?_, hfirst g hgm⟩
    rw [leafPages_flatten _ hpadlen hpadnd]
    exact List.mem_filter.mpr ⟨hhead g hgm, by rw [← isLeaf_same (hfirst g hgm) (by omega)]; exact hl⟩
  -- the rows of the first pages
  have hsub : ∀ row ∈ (rsss.map (·.headD [])).flatten, row ∈ rsss.flatten.flatten := by
    intro row hrow
    obtain ⟨rs, hrs, hrow⟩ := List.mem_flatten.mp hrow
    obtain ⟨rss, hrss, rfl⟩ := List.mem_map.mp hrs
    cases rss with
    | nil => cases hrow
    | cons x xs => exact List.mem_flatten.mpr ⟨x, List.mem_flatten.mpr ⟨_, hrss, by simp⟩, hrow⟩
  have hrows : ∃ rss, (rsss.map (·.headD [])).flatten = rss.flatten ∧ All2 (fun d rs => ∃ cellss, PageHolds defs deleted d cellss ∧
      All2 (fun cells row => All2 (Stores l cells) (columnsOf crs t.id) row) cellss rs) (leafPages groups.flatten.flatten r.id deleted) rss := by
    rw [hflat, leafPages_flatten _ hbig hnd]
    clear hflat hbigPages hfilledPages hpadnd hpadlen hnd hbig hfile hp hibd hnum hg hlen hhead hleafs hsub hpn
    induction hpages with
    | nil => exact ⟨[], rfl, .nil⟩
    | @cons g rss gs rsss hgr hrest ih =>
      obtain ⟨rss', e, ih⟩ := ih (fun g hg => hne g (List.mem_cons_of_mem _ hg)) (fun g hg => hfirst g (List.mem_cons_of_mem _ hg))
      have hf := hfirst g (by simp)
      have hl := isLeaf_same hf (by omega) r.id deleted
      cases hgr with
      | nil => exact absurd rfl (hne [] (by simp))
      | @cons p rs g rss hpr _ =>
        obtain ⟨hpl, hpr⟩ := hpr
        rw [List.headD_cons] at hf hl
        rw [List.map_cons, List.map_cons, List.flatten_cons, List.headD_cons]
        by_cases hleaf : isLeaf r.id deleted (pad p) = true
        · rw [if_pos hleaf] at hpr
          obtain ⟨cellss, h1, h2⟩ := hpr
          rw [List.filter_cons_of_pos (by rw [hl]; exact hleaf)]
          exact ⟨rs :: rss', by rw [e, List.flatten_cons], .cons ⟨cellss, holds_same hf (by omega) (by omega) h1, h2⟩ ih⟩
        · rw [if_neg hleaf] at hpr
          subst hpr
          rw [List.filter_cons_of_neg (by rw [hl]; exact hleaf)]
          exact ⟨rss', e, ih⟩
  refine C57_command_partial env a sys groups.flatten.flatten trs crs irs frs t r l defs deleted _ hp.sysFile hibd hp.dict hp.table hp.name
    hp.layout ⟨hfile.names, hfile.bits, hfile.desc, hrows, fun row hrow => hfile.typed row (hsub row hrow)⟩ hp.op hp.keys hp.handled ?_ ?_ ?_
    (fun row hrow => hp.values row (hsub row hrow)) hp.db hp.tab out
  · refine ⟨?_, ?_⟩
    · intro d hd h1 h2
      rw [hbigPages] at hd
      obtain ⟨g, hgm, rfl⟩ := List.mem_map.mp hd
      have hf := hfirst g hgm
      rw [field_same hf _ (by simp only [FIL_PAGE_TYPE]; omega)] at h1
      rw [field_same hf _ (by simp only [PAGE_LEVEL]; omega)] at h2
      rw [field_same hf _ (by simp only [PAGE_MAX_TRX_ID]; omega), field_same hf _ (by simp only [PAGE_INDEX_ID]; omega)]
      exact hp.mark.trx _ (by rw [hfilledPages]; exact hhead g hgm) h1 h2
    · intro hdel d hd
      obtain ⟨e, he, hf⟩ := hleafs d hd
      rw [field_same hf _ (by simp only [PAGE_GARBAGE]; omega)]
      exact hp.mark.garbage hdel e he
  · intro d hd hc
    obtain ⟨e, he, hf⟩ := hleafs d hd
    exact hp.compact e he (by rw [← isCompact_same hf (by omega)]; exact hc)
  · intro d hd hc
    obtain ⟨e, he, hf⟩ := hleafs d hd
    have := hp.redundant e he (by rw [← isCompact_same hf (by omega)]; exact hc)
    exact ⟨this.1, fun row hrow => this.2 row (hsub row hrow)⟩

theorem heads_length {α : Type} (L : List (List (List α))) :
    (L.map (·.headD [])).flatten.length + ((L.map List.tail).flatten).flatten.length = L.flatten.flatten.length := by
  induction L with
  | nil => rfl
  | cons x L ih =>
    rw [List.map_cons, List.map_cons, List.flatten_cons, List.flatten_cons, List.flatten_cons, List.flatten_append, List.flatten_append,
      List.length_append, List.length_append, List.length_append, ← ih]
    cases x with
    | nil => simp
    | cons y x =>
      rw [List.headD_cons, List.tail_cons, List.flatten_cons, List.length_append]
      omega

/-- **C78, exactly when.** All rows are printed if and only if there are no rows on the pages other than the first of each 16384 bytes. -/
theorem C78_iff (env : Env) (a : FromData) (sys : Bytes) (trs : List TableRow) (crs : List ColumnRow) (irs : List IndexRow)
    (frs : List FieldRow) (t : TableRow) (r : IndexRow) (l : List Column) (defs : List ColDef) (deleted : Bool) (s n : Nat)
    (groups : List (List Bytes)) (rsss : List (List (List (List (Option TVal))))) (out : Out)
    (h : SmallFile env a sys trs crs irs frs t r l defs deleted s n groups rsss) :
    (∃ lines, fromDataFile env a out = .ok () (out ++ lines) ∧ All2 (Printed env.ff a.db a.table) lines rsss.flatten.flatten) ↔
      ∀ rss ∈ rsss, ∀ rs ∈ rss.tail, rs = [] := by
  obtain ⟨lines, h1, h2⟩ := C78_exact_partial env a sys trs crs irs frs t r l defs deleted s n groups rsss out h
  have hl := heads_length rsss
  constructor
  · rintro ⟨lines', h3, h4⟩
    rw [h1] at h3
    injection h3 with _ h3
    have h3 := List.append_cancel_left h3
    subst h3
    have : ((rsss.map List.tail).flatten).flatten.length = 0 := by
      have := all2_length h2
      have := all2_length h4
      omega
    have := List.eq_nil_of_length_eq_zero this
    intro rss hrss rs hrs
    rw [List.flatten_eq_nil_iff] at this
    exact this rs (List.mem_flatten.mpr ⟨rss.tail, List.mem_map_of_mem hrss, hrs⟩)
  · intro hempty
    have : (rsss.map (·.headD [])).flatten = rsss.flatten.flatten := by
      clear h h1 h2 hl
      induction rsss with
      | nil => rfl
      | cons x L ih =>
        rw [List.map_cons, List.flatten_cons, List.flatten_cons, List.flatten_append, ih fun rss h => hempty rss (List.mem_cons_of_mem _ h)]
        congr 1
        cases x with
        | nil => rfl
        | cons y x =>
          rw [List.headD_cons, List.flatten_cons, (show x.flatten = [] from List.flatten_eq_nil_iff.mpr (hempty (y :: x) (by simp))), List.append_nil]
    exact ⟨lines, h1, this ▸ h2⟩

/-! ## C78 is false -/

theorem holds_mono {m m' : Nat} (h : m ≤ m') {defs : List ColDef} {deleted : Bool} {d : Bytes} {cellss : List (List Cell)}
    (hd : HoldsUpTo m defs deleted d cellss) : HoldsUpTo m' defs deleted d cellss := by
  cases hd with
  | compact hc hr hrows => exact .compact hc hr (all2_imp (fun _ _ x => ⟨x.1, Nat.le_trans x.2 h⟩) hrows)
  | redundant hc hr hrows => exact .redundant hc hr (all2_imp (fun _ _ x => ⟨⟨x.1.1, Nat.le_trans x.1.2 h⟩, x.2⟩) hrows)

/-- an empty page of 8192 bytes -/
def smallZero : Bytes := List.replicate 8192 0

/-- the data page of the shop, with 8192 bytes -/
def smallShop : Bytes := shopDataPage (b! "ann") ++ List.replicate (8192 - (shopDataPage (b! "ann")).length) 0

theorem smallShop_length : smallShop.length = 8192 := by
  have := shopData_length (.inl rfl : ShopRow (b! "ann"))
  unfold smallShop
  rw [List.length_append, List.length_replicate]
  omega

theorem smallShop_pad : pad smallShop = shopPage := by
  have := shopData_length (.inl rfl : ShopRow (b! "ann"))
  unfold pad
  rw [smallShop_length]
  unfold smallShop shopPage pad
  rw [List.append_assoc, List.replicate_append_replicate, show 8192 - (shopDataPage (b! "ann")).length + (16384 - 8192) =
    16384 - (shopDataPage (b! "ann")).length by omega]

theorem smallZero_pad : pad smallZero = List.replicate 16384 0 := by
  unfold pad smallZero
  rw [List.length_replicate, List.replicate_append_replicate]

theorem numAt_zeros (n o w : Nat) : numAt (List.replicate n 0) o w = 0 := by
  unfold numAt
  rw [List.drop_replicate, List.take_replicate, beVal_zeros]

theorem smallShop_number : pageNumber smallShop = 3 := by
  have := shopData_length (.inl rfl : ShopRow (b! "ann"))
  have e : pageNumber smallShop = pageNumber (shopDataPage (b! "ann")) := by
    unfold pageNumber numAt smallShop
    rw [List.drop_append_of_le_length (by omega), List.take_append_of_le_length (by rw [List.length_drop]; omega)]
  rw [e]
  decide

/-- the file: page 0 and the data page, 8192 bytes each -/
def smallGroups : List (List Bytes) := [[smallZero, smallShop]]

def smallRows : List (List (List (List (Option TVal)))) := [[[], shopRows (b! "ann") true]]

theorem small_filled : (smallGroups.flatten.map pad).flatten = [List.replicate 16384 0, shopPage].flatten := by
  unfold smallGroups
  rw [List.flatten_singleton, List.map_cons, List.map_cons, List.map_nil, smallShop_pad, smallZero_pad]

theorem small_pages : filePages (smallGroups.flatten.map pad).flatten = [List.replicate 16384 0, shopPage] := by
  rw [small_filled]
  refine images_flatten _ ?_ ?_
  · intro p hp
    rcases List.mem_cons.mp hp with rfl | hp
    · rw [List.length_replicate]
    · cases List.mem_singleton.mp hp
      exact shopPage_length
  · have : pageNumber shopPage = 3 := by
      rw [← smallShop_number, ← smallShop_pad]
      exact numAt_pad _ _ _ (by rw [smallShop_length]; decide)
    rw [List.map_cons, List.map_cons, List.map_nil, this, show pageNumber (List.replicate 16384 0) = 0 from numAt_zeros _ _ _]
    decide

theorem zero_leaf (n cid : Nat) (deleted : Bool) : isLeaf cid deleted (List.replicate n 0) = false := by
  unfold isLeaf
  rw [show field (List.replicate n 0) FIL_PAGE_TYPE = 0 from numAt_zeros _ _ _]
  rfl

theorem shop_isLeaf : isLeaf 30 true shopPage = true := by
  have h := shopData_leaf (.inl rfl : ShopRow (b! "ann")) true
  have : shopPage ∈ leafPages (shopData (b! "ann")) 30 true := by rw [h]; exact List.mem_singleton.mpr rfl
  exact (List.mem_filter.mp this).2

theorem small_leaf : leafPages (smallGroups.flatten.map pad).flatten 30 true = [shopPage] := by
  show (filePages _).filter (isLeaf 30 true) = _
  rw [small_pages, List.filter_cons_of_neg (by rw [zero_leaf]; decide), List.filter_cons_of_pos shop_isLeaf, List.filter_nil]

/-- the command for the deleted rows -/
def smallArgs : FromData := ⟨.ok (shopFile idKey), .ok smallGroups.flatten.flatten, b! "shop", b! "t", b! "RecoveryData"⟩

theorem small_rows : smallRows.flatten.flatten = shopRows (b! "ann") true := rfl

theorem small_file (env : Env) : SmallFile env smallArgs (shopFile idKey) shopTables shopColumns (shopIndexes idKey) (shopFields idKey)
    ⟨b! "shop/t", 20, 5⟩ ⟨20, 30, b! "PRIMARY", 1, 3⟩ (shopLayout 20) shopDefs true 8192 2 smallGroups smallRows where
  size := by decide
  full := by
    intro g hg
    cases List.mem_singleton.mp hg
    rfl
  pages := by
    refine .cons (.cons ⟨List.length_replicate, ?_⟩ (.cons ⟨smallShop_length, ?_⟩ .nil)) .nil
    · rw [smallZero_pad, if_neg (by rw [zero_leaf]; decide)]
    · rw [smallShop_pad, if_pos shop_isLeaf]
      exact ⟨_, holds_mono (by decide) shop_upto, .cons (shopData_stores 3 _) .nil⟩
  numbers := by
    unfold smallGroups
    rw [List.flatten_singleton, List.map_cons, List.map_cons, List.map_nil, smallShop_number,
      show pageNumber smallZero = 0 from numAt_zeros _ _ _]
    decide
  filled := by
    have hf := shopData_file env (.inl rfl : ShopRow (b! "ann")) true
    refine ⟨hf.names, hf.bits, hf.desc, ⟨[shopRows (b! "ann") true], rfl, ?_⟩, hf.typed⟩
    have : leafPages (smallGroups.flatten.map pad).flatten 30 true = [shopPage] := small_leaf
    rw [this]
    exact .cons ⟨_, shopData_holds (.inl rfl) true, .cons (shopData_stores 3 _) .nil⟩ .nil
  printable := by
    have hp := shop_printable env 0
    have hleaf : leafPages (smallGroups.flatten.map pad).flatten 30 true = leafPages (shopData (b! "ann")) 30 true := by
      rw [small_leaf, shopData_leaf (.inl rfl)]
      rfl
    refine ⟨by rw [smallArgs], hp.dict, hp.table, rfl, hp.layout, by simp [smallArgs], hp.keys, hp.handled, ⟨?_, ?_⟩, ?_, ?_, hp.values,
      hp.db, hp.tab⟩
    · intro d hd h1 h2
      rw [small_pages] at hd
      rcases List.mem_cons.mp hd with rfl | hd
      · rw [show field (List.replicate 16384 0) FIL_PAGE_TYPE = 0 from numAt_zeros _ _ _] at h1
        exact absurd h1 (by decide)
      · cases List.mem_singleton.mp hd
        exact hp.mark.trx shopPage (by rw [shopData_pages (.inl rfl)]; exact List.mem_singleton.mpr rfl) h1 h2
    · intro hdel d hd
      exact hp.mark.garbage hdel d (hleaf ▸ hd)
    · intro d hd
      exact hp.compact d (hleaf ▸ hd)
    · intro d hd
      exact hp.redundant d (hleaf ▸ hd)
  file := by rw [smallArgs]

/-- **C78 is false**: the deleted row (3, 'bob') on the second page of 8192 bytes is not printed. -/
theorem C78_false : ¬ C78_statement := by
  intro h
  have := (C78_iff testEnv smallArgs _ _ _ _ _ _ _ _ _ true 8192 2 smallGroups smallRows [] (small_file testEnv)).mp
    (h testEnv smallArgs _ _ _ _ _ _ _ _ _ true 8192 2 smallGroups smallRows [] (small_file testEnv))
  exact absurd (this [[], shopRows (b! "ann") true] (by simp [smallRows]) (shopRows (b! "ann") true) (by simp)) (by simp [shopRows])

end Verif.Props
